import Verif.Thm.DhcpExchange
import Verif.Thm.TlsRecord
import Verif.Spec.DhcpSilent
/-!
# Calls of a DHCP client that gets no answer
-/
namespace Verif.Thm
open Verif Hl Spec Dhcp

/-- Sending a datagram leaves the size of the buffer alone. -/
theorem emitSendTo_txSize {sn : Sn} {w w' : World} (h : TxState w.chip sn.idx) {p : WProg Unit} {addr : SockAddr}
    (e : emitSendTo false sn p addr w = (.ok (), w')) : w'.chip.txSize sn.idx = w.chip.txSize sn.idx := by
  obtain ⟨r, img, e0, rsn, -, -, rel⟩ := run_socketWriter h
  unfold emitSendTo at e
  rw [M.bind_ok e0] at e
  have rel' := (wprog_sim p rel).2
  rcases hr : p.run (writerOps worldBus) (w.tick, r) with ⟨x, w1, r1⟩
  rw [hr] at rel'
  have ho : onWriter worldBus r p w.tick = (x.map fun a => (a, r1), w1) := by
    unfold onWriter; rw [hr]; cases x <;> rfl
  cases x with
  | error err => rw [M.bind_error ho] at e; simp at e
  | ok a =>
    rw [M.bind_ok ho] at e
    dsimp only at e
    unfold udpWriterSendTo at e
    rw [M.bind_ok (show debugAssert false (srIsUdp worldBus r1.sn) w1 = (.ok (), w1) from rfl), M.bind_ok (run_setSnDest r1.sn addr w1)] at e
    rw [Tls.writerSend_txSize _ _ _ e, ← tick_txSize w]
    have hsn : r1.sn = sn := by
      have := wprog_sn (b := worldBus) p w.tick r
      rw [hr] at this
      exact this.trans rsn
    have := rel'.txSize
    dsimp only at this
    rw [hsn] at this
    rw [← this, ← tick_txSize w1]
    unfold Chip.txSize
    rw [show (setDest w1.tick.chip r1.sn.idx addr).mem (4 * sn.idx + 1) 0x1F = w1.tick.chip.mem (4 * sn.idx + 1) 0x1F from
      setDest_same _ _ _ _ _ (.inr (.inr (by omega)))]

theorem still_readOnly {α : Type} {m : M World α} (h : ReadOnly m) {k : Nat} {w : World} (hs : Still k w) : Still k (m w).2 := by
  obtain ⟨j, hj⟩ := h w
  rw [hj]
  exact (later_still ⟨j, rfl⟩ hs).1

/-- After `udp_bind` with nobody sending, nothing has been received. -/
theorem udpBind_still (fuel : Nat) (sn : Sn) (port : UInt16) (w w' : World) (hs : Still sn.idx w)
    (h : udpBind false fuel worldBus sn port w = (.ok (), w')) : Still sn.idx w' ∧ w'.chip.received sn.idx = [] := by
  unfold udpBind at h
  obtain ⟨_, w1, h1, h⟩ := M.bind_ok_inv h
  obtain ⟨_, w2, h2, h⟩ := M.bind_ok_inv h
  obtain ⟨_, w3, h3, h⟩ := M.bind_ok_inv h
  rw [M.bind_ok (run_setSnPort sn port _), M.bind_ok (run_setSnMr sn _ _), M.bind_ok (run_setSnCr sn _ _)] at h
  have s1 : Still sn.idx w1 := by
    have := still_readOnly (readOnly_debugAssert false (readOnly_portIsUnique sn port)) hs
    rw [h1] at this; exact this
  have s2 : Still sn.idx w2 := by
    rw [run_setSnCr] at h2
    injection h2 with _ h2
    rw [← h2]
    exact s1.tick.1
  have s3 : Still sn.idx w3 := by
    have := still_readOnly (readOnly_waitStatus sn .closed fuel) s2
    rw [h3] at this; exact this
  generalize hu : ({ w3.tick with chip := w3.tick.chip.setReg sn.idx 4 port.toNat } : World) = u at h
  have su : Still sn.idx u := by rw [← hu]; exact s3.tick.1
  generalize hv : ({ u.tick with chip := { u.tick.chip with mem := u.tick.chip.mem.store (4 * sn.idx + 1) 0 (SocketMode.default.setProtocol .udp).raw } } : World) = v at h
  have sv : Still sn.idx v := by rw [← hv]; exact su.tick.1
  have hc : v.tick.chip.command sn.idx SocketCommand.«open».code = v.tick.chip.cmdOpen sn.idx := rfl
  rw [hc] at h
  have hl : Later ({ v.tick with chip := v.tick.chip.cmdOpen sn.idx } : World) w' := by
    obtain ⟨j, hj⟩ := readOnly_waitStatus sn .udp fuel ({ v.tick with chip := v.tick.chip.cmdOpen sn.idx } : World)
    rw [h] at hj
    exact ⟨j, hj⟩
  obtain ⟨g1, g2⟩ := later_still hl (k := sn.idx) sv.tick.1
  refine ⟨g1, g2.trans ?_⟩
  simp [Chip.cmdOpen, Chip.setStatus, Chip.resetReceived, Chip.setReg]

/-- `discover` with nobody sending. -/
theorem discover_silent (fuel : Nat) (secs : UInt32) (w : World) (c : Client) (hv : ValidHostname c.hostname) (hs : Sizes w.chip c.sn.idx)
    (hst : Steady c.sn.idx w) (hsl : Still c.sn.idx w) (hroom : 255 + c.hostname.length ≤ w.chip.txSize c.sn.idx) :
    ∃ w' payload, discover false (fuel + 1) worldBus secs (w, c) =
        (.ok (), (w', { c with ip := .unspecified, xid := c.rand.nextU32.1, rand := c.rand.nextU32.2, state := .selecting, stateTimeout := some secs })) ∧
      w'.chip.sent = w.chip.sent ++ [⟨c.sn.idx, c.broadcastAddr.ip.octets, c.broadcastAddr.port.toNat, payload⟩] ∧
      decode payload = some (discoverMessage c.mac c.hostname c.rand.nextU32.1) ∧ RxState w'.chip c.sn.idx 0 ∧ Sizes w'.chip c.sn.idx ∧
      w'.chip.received c.sn.idx = [] ∧ w'.chip.txSize c.sn.idx = w.chip.txSize c.sn.idx := by
  obtain ⟨x, rnd, hx, ex, er⟩ : ∃ x rnd, restarted c = { c with ip := .unspecified, xid := x, rand := rnd } ∧ c.rand.nextU32.1 = x ∧ c.rand.nextU32.2 = rnd :=
    ⟨_, _, rfl, rfl, rfl⟩
  rw [ex, er]
  have hset : ∃ w3, worldBus.setSipr Ipv4.unspecified w = (.ok (), w3) ∧ Calm c.sn.idx w w3 ∧ Steady c.sn.idx w3 ∧ Still c.sn.idx w3 :=
    ⟨_, rfl, (calm_tick _ w).trans (calm_common c.sn.idx 15 0 0 0 0 w.tick (by omega)), hst.tick.1, hsl.tick.1⟩
  obtain ⟨w3, h5, hc, st3, sl3⟩ := hset
  have hs3 : Sizes w3.chip c.sn.idx := by
    refine ⟨?_, ?_, ?_, ?_⟩ <;> first | rw [hc.rxs] | rw [hc.txs]
    · exact hs.1
    · exact hs.2
    · exact hs.3
    · exact hs.4
  obtain ⟨w4, h6, -, -⟩ := (C95_opens false (fuel + 1) c.sn (.bind c.srcPort) w3 (by omega) st3).resolve_left (fun h => by cases h.1)
  change udpBind false (fuel + 1) worldBus c.sn c.srcPort w3 = _ at h6
  obtain ⟨r1, r2, r3, r4⟩ := udpBind_room false (fuel + 1) c.sn c.srcPort w3 w4 hs3 h6
  obtain ⟨q1, q2⟩ := udpBind_still (fuel + 1) c.sn c.srcPort w3 w4 sl3 h6
  have hsent : w4.chip.sent = w.chip.sent := by
    have := keepsSent_udpBind false (fuel + 1) c.sn c.srcPort w3
    rw [h6] at this
    exact this.trans hc.sent
  have hlen : (dhcpHeader c.mac x ++ discoverOptions c.mac c.hostname).length = 255 + c.hostname.length := by
    rw [List.length_append, dhcpHeader_length]; simp [discoverOptions, Eui48.octets]; omega
  rcases emitSendTo_run (dbg := false) r4 (emits_discover c.mac c.hostname x) c.broadcastAddr with ⟨w5, g1, g2, g3⟩ | ⟨e, w5, g1, -, g3⟩
  · have hd : discover false (fuel + 1) worldBus secs (w, c) =
        (.ok (), (w5, { c with ip := .unspecified, xid := x, rand := rnd, state := .selecting, stateTimeout := some secs })) := by
      rw [discover_run, hx, bind_onBus]
      dsimp only
      rw [h5]
      dsimp only
      rw [bind_onBus, h6]
      dsimp only
      rw [bind_onBus, show sendDhcpDiscover false worldBus c.sn c.mac c.hostname x c.broadcastAddr w4 = _ from g1]
      rfl
    have htxo := txOnly_sendTo c.sn c.broadcastAddr (dhcpDiscover c.mac c.hostname x) w4
    rw [g1] at htxo
    obtain ⟨b', hb'⟩ := r3.at
    have hr5 := (htxo.rx _ _ hb').state
    refine ⟨w5, _, hd, by rw [g3, hsent], decode_discover c.mac c.hostname _ hv, hr5, ⟨hr5.1, hr5.2, g2.1, g2.2⟩, ?_, ?_⟩
    · exact (htxo.still q1).2.trans q2
    · exact (emitSendTo_txSize r4 g1).trans (r2.trans hc.txs)
  · exfalso
    rw [hlen] at g3
    have := hc.txs
    rcases g3 with g3 | g3
    · omega
    · cases g3

/-- The client has asked at `since` and nothing is unread. -/
structure Asked (c : Client) (since : UInt32) (p : Nat) (w : World) : Prop where
  state : c.state = .selecting ∨ c.state = .requesting
  time : c.stateTimeout = some since
  name : ValidHostname c.hostname
  sizes : Sizes w.chip c.sn.idx
  room : 255 + c.hostname.length ≤ w.chip.txSize c.sn.idx
  rx : RxState w.chip c.sn.idx p
  read : (w.chip.received c.sn.idx).length = p

/-- One call. -/
theorem call_silent (fuel n : Nat) (es : List EnvStep) (t : UInt32) (sched : List (List EnvStep)) (w : World) (c : Client) (since : UInt32) (p : Nat)
    (h : Asked c since p w) (hn : NoAnswer c.sn.idx (es, t, sched)) :
    let r := process false (fuel + 1) (n + 1) worldBus t (w.pause es sched, c)
    (¬ c.timeout < t - since ∧ r.1 = .ok (c.timeout - (t - since)) ∧ r.2.1.chip.sent = w.chip.sent ∧ r.2.2 = c ∧ Asked c since p r.2.1) ∨
    (c.timeout < t - since ∧ r.1 = .ok c.timeout ∧
      r.2.2 = { c with ip := .unspecified, xid := c.rand.nextU32.1, rand := c.rand.nextU32.2, state := .selecting, stateTimeout := some t } ∧
      Asked r.2.2 t 0 r.2.1 ∧ ∃ payload,
        r.2.1.chip.sent = w.chip.sent ++ [⟨c.sn.idx, c.broadcastAddr.ip.octets, c.broadcastAddr.port.toNat, payload⟩] ∧
        decode payload = some (discoverMessage c.mac c.hostname c.rand.nextU32.1)) := by
  obtain ⟨k1, k2, -⟩ := pause_calm c.sn.idx w es sched
  have hsl0 : Still c.sn.idx ({ w with sched := es :: sched } : World) := hn.silent
  have hsl := hsl0.tick
  change Still c.sn.idx (w.pause es sched) ∧ (w.pause es sched).chip.received c.sn.idx = w.chip.received c.sn.idx at hsl
  have hst : Steady c.sn.idx (w.pause es sched) := hn.status
  generalize w.pause es sched = w0 at *
  obtain ⟨base, hb⟩ := h.rx.at
  obtain ⟨w1, h1, h2⟩ := clearIr_calm c.sn w0
  have s1 := clearIr_still c.sn w0 c.sn.idx hsl.1
  have st1 := clearIr_steady c.sn w0 c.sn.idx hst
  rw [h1] at s1 st1
  have hni : c.state ≠ .init := by rcases h.state with e | e <;> rw [e] <;> nofun
  have hpr : process false (fuel + 1) (n + 1) worldBus t (w0, c) = (packets false (fuel + 1) worldBus t (n + 1) >>= fun r => match r with
      | some v => pure v
      | none => timers false (fuel + 1) worldBus t >>= fun _ => getC >>= fun c => M.ofExcept (c.nextCall false t)) (w1, c) := by
    unfold process
    rw [M.bind_ok (show getC (w0, c) = (.ok c, (w0, c)) from rfl), bind_onBus, h1]
    dsimp only
    rw [bind_onBus]
    unfold linkDown
    rw [if_neg hni]
    rfl
  have hb1 := h2.rx _ _ (k2 _ _ hb)
  have hlen1 : (w1.chip.received c.sn.idx).length = p := by rw [s1.2, hsl.2]; exact h.read
  obtain ⟨w2, h4, hlat⟩ := packets_empty (fuel + 1) n t c base p w1 hb1 (empty_of s1.1 hlen1)
  rw [M.bind_ok h4] at hpr
  dsimp only at hpr
  have hc2 := hlat.calm c.sn.idx
  have s2 := later_still hlat s1.1
  have st2 : Steady c.sn.idx w2 := by
    obtain ⟨j, rfl⟩ := hlat
    exact st1.ticks j
  have hb2 := hc2.rx _ _ hb1
  have htxs : w2.chip.txSize c.sn.idx = w.chip.txSize c.sn.idx := hc2.txs.trans (h2.txs.trans k1.txs)
  have hrxs : w2.chip.rxSize c.sn.idx = w.chip.rxSize c.sn.idx := hc2.rxs.trans (h2.rxs.trans k1.rxs)
  have hsz : Sizes w2.chip c.sn.idx := by
    refine ⟨?_, ?_, ?_, ?_⟩ <;> first | rw [hrxs] | rw [htxs]
    · exact h.sizes.1
    · exact h.sizes.2
    · exact h.sizes.3
    · exact h.sizes.4
  have hsent : w2.chip.sent = w.chip.sent := hc2.sent.trans (h2.sent.trans k1.sent)
  have ht := (timers_due (b := worldBus) false (fuel + 1) t w2 c).resolve_right (fun h => by cases h.1)
  unfold dueTimer at ht
  rw [h.time] at ht
  dsimp only at ht
  rw [M.bind_run, ht] at hpr
  intro r
  have hr : r = _ := hpr
  clear_value r
  by_cases hd : c.timeout < t - since
  · rw [if_pos hd] at hr
    obtain ⟨w', payload, e1, e2, e3, e4, e5, e6, e7⟩ := discover_silent fuel t w2 c h.name hsz st2 s2.1 (by rw [htxs]; exact h.room)
    generalize c.rand.nextU32.1 = x at e1 e3 ⊢
    generalize c.rand.nextU32.2 = rnd at e1 ⊢
    rw [show timerAction false (fuel + 1) worldBus t (some .restart) (w2, c) = _ from e1] at hr
    dsimp only at hr
    rw [M.bind_ok (show getC (w', _) = (.ok _, (w', _)) from rfl)] at hr
    have hnc : ∀ c' : Client, c'.stateTimeout = some t → c'.nextCall false t = .ok c'.timeout := by
      intro c' hc'
      unfold Client.nextCall Client.timeoutElapsed
      rw [hc']
      simp [satSub]
    rw [hnc _ rfl] at hr
    right
    rw [hr]
    refine ⟨hd, rfl, rfl, ⟨.inl rfl, rfl, h.name, e5, ?_, e4, congrArg List.length e6⟩, payload, e2.trans (by rw [hsent]), e3⟩
    exact Nat.le_trans h.room (Nat.le_of_eq (e7.trans htxs).symm)
  · rw [if_neg hd] at hr
    rw [show timerAction false (fuel + 1) worldBus t none (w2, c) = (.ok (), (w2, c)) from rfl] at hr
    dsimp only at hr
    rw [M.bind_ok (show getC (w2, c) = (.ok c, (w2, c)) from rfl)] at hr
    have hnc : c.nextCall false t = .ok (c.timeout - (t - since)) := by
      unfold Client.nextCall Client.timeoutElapsed
      rw [h.time]
      simp [satSub]
      intro hx; exact absurd hx hd
    rw [hnc] at hr
    left
    rw [hr]
    refine ⟨hd, rfl, hsent, rfl, h.state, h.time, h.name, hsz, Nat.le_trans h.room (Nat.le_of_eq htxs.symm), hb2.state,
      (congrArg List.length s2.2).trans hlen1⟩

/-- The first call of a client that has not started, with nobody sending. -/
theorem call_first (fuel n : Nat) (t : UInt32) (w : World) (c : Client) (p : Nat) (hi : c.state = .init) (ht : c.stateTimeout = none)
    (hl : linkUp w.chip = true) (hv : ValidHostname c.hostname) (hs : Sizes w.chip c.sn.idx) (hst : Steady c.sn.idx w) (hsl : Still c.sn.idx w)
    (hr : RxState w.chip c.sn.idx p) (hq : (w.chip.received c.sn.idx).length = p) (hroom : 255 + c.hostname.length ≤ w.chip.txSize c.sn.idx) :
    let r := process false (fuel + 1) (n + 1) worldBus t (w, c)
    r.1 = .ok c.timeout ∧
      r.2.2 = { c with ip := .unspecified, xid := c.rand.nextU32.1, rand := c.rand.nextU32.2, state := .selecting, stateTimeout := some t } ∧
      Asked r.2.2 t 0 r.2.1 ∧ ∃ payload,
        r.2.1.chip.sent = w.chip.sent ++ [⟨c.sn.idx, c.broadcastAddr.ip.octets, c.broadcastAddr.port.toNat, payload⟩] ∧
        decode payload = some (discoverMessage c.mac c.hostname c.rand.nextU32.1) := by
  obtain ⟨base, hb⟩ := hr.at
  obtain ⟨w1, h1, h2, h3⟩ := clearIr_mem0 c.sn w
  have hl1 : linkUp w1.chip = true := by unfold linkUp at hl ⊢; rw [h3]; exact hl
  have s1 := clearIr_still c.sn w c.sn.idx hsl
  have st1 := clearIr_steady c.sn w c.sn.idx hst
  rw [h1] at s1 st1
  have hcalm := h2.trans (calm_tick c.sn.idx w1)
  have s1' := s1.1.tick
  have st1' := st1.tick.1
  have hpr : process false (fuel + 1) (n + 1) worldBus t (w, c) = (packets false (fuel + 1) worldBus t (n + 1) >>= fun r => match r with
      | some v => pure v
      | none => timers false (fuel + 1) worldBus t >>= fun _ => getC >>= fun c => M.ofExcept (c.nextCall false t)) (w1.tick, c) := by
    unfold process
    rw [M.bind_ok (show getC (w, c) = (.ok c, (w, c)) from rfl), bind_onBus, h1]
    dsimp only
    rw [bind_onBus, linkDown_run c w1 hi, hl1]
    rfl
  have hlen1 : (w1.tick.chip.received c.sn.idx).length = p := by rw [s1'.2]; exact (congrArg List.length s1.2).trans hq
  obtain ⟨w2, h4, hlat⟩ := packets_empty (fuel + 1) n t c base p w1.tick (hcalm.rx _ _ hb) (empty_of s1'.1 hlen1)
  rw [M.bind_ok h4] at hpr
  dsimp only at hpr
  have hc2 := hcalm.trans (hlat.calm c.sn.idx)
  have s2 := later_still hlat s1'.1
  have st2 : Steady c.sn.idx w2 := by
    obtain ⟨j, rfl⟩ := hlat
    exact st1'.ticks j
  have hsz : Sizes w2.chip c.sn.idx := by
    refine ⟨?_, ?_, ?_, ?_⟩ <;> first | rw [hc2.rxs] | rw [hc2.txs]
    · exact hs.1
    · exact hs.2
    · exact hs.3
    · exact hs.4
  rw [M.bind_run, timers_init false (fuel + 1) t w2 c hi ht] at hpr
  intro r
  have hr : r = _ := hpr
  clear_value r
  obtain ⟨w', payload, e1, e2, e3, e4, e5, e6, e7⟩ := discover_silent fuel t w2 c hv hsz st2 s2.1 (by rw [hc2.txs]; exact hroom)
  generalize c.rand.nextU32.1 = x at e1 e3 ⊢
  generalize c.rand.nextU32.2 = rnd at e1 ⊢
  rw [e1] at hr
  dsimp only at hr
  rw [M.bind_ok (show getC (w', _) = (.ok _, (w', _)) from rfl)] at hr
  have hnc : ∀ c' : Client, c'.stateTimeout = some t → c'.nextCall false t = .ok c'.timeout := by
    intro c' hc'
    unfold Client.nextCall Client.timeoutElapsed
    rw [hc']
    simp [satSub]
  rw [hnc _ rfl] at hr
  rw [hr]
  exact ⟨rfl, rfl, ⟨.inl rfl, rfl, hv, e5, Nat.le_trans hroom (Nat.le_of_eq (e7.trans hc2.txs).symm), e4, congrArg List.length e6⟩, payload,
    e2.trans (by rw [hc2.sent]), e3⟩

end Verif.Thm

import Verif.Proof.DhcpExchange
/-!
# C101: from the first DISCOVER to the lease
-/
namespace Verif.Thm
open Verif Hl Spec Dhcp

/-! ## The calls -/

theorem timers_fresh (fuel : Nat) (secs : UInt32) (w : World) (c : Client) (h : c.stateTimeout = some secs) :
    (timers false fuel worldBus secs >>= fun _ => getC >>= fun c => M.ofExcept (c.nextCall false secs)) (w, c) = (.ok c.timeout, (w, c)) := by
  have ht : timers false fuel worldBus secs (w, c) = (.ok (), (w, c)) := by
    rcases timers_due (b := worldBus) false fuel secs w c with hd | ⟨hd, -⟩
    · rw [hd]
      have : dueTimer c secs = none := by
        unfold dueTimer
        rw [h]
        dsimp only
        rw [if_neg]
        rw [UInt32.sub_self]
        exact UInt32.not_lt_zero
      rw [this]; rfl
    · cases hd
  rw [M.bind_ok ht, M.bind_ok (show getC (w, c) = (.ok c, (w, c)) from rfl)]
  have : c.nextCall false secs = .ok c.timeout := by
    unfold Client.nextCall Client.timeoutElapsed
    rw [h]
    simp [satSub]
  rw [this]; rfl

theorem clearIr_steady (sn : Sn) (w : World) (k : Nat) (h : Steady k w) : Steady k (clearIr worldBus sn w).2 := by
  unfold clearIr
  have hir : ∃ ir, worldBus.snIr sn w = (.ok ir, w.tick) := ⟨_, rfl⟩
  obtain ⟨ir, hir⟩ := hir
  rw [M.bind_ok hir]
  by_cases hr : ir.anyRaised = true
  · rw [if_pos hr, run_setSnIr]; exact h.tick.1.tick.1
  · rw [if_neg hr]; exact h.tick.1

/-- The call that starts. -/
theorem call_start (fuel n : Nat) (secs : UInt32) (w : World) (c : Client) (base p : Nat) (hi : c.state = .init) (ht : c.stateTimeout = none)
    (hl : linkUp w.chip = true) (hv : ValidHostname c.hostname) (hs : Sizes w.chip c.sn.idx) (hst : Steady c.sn.idx w)
    (hb : RxAt w.chip c.sn.idx base p) (hp : Empty c.sn.idx p w) (hroom : 255 + c.hostname.length ≤ w.chip.txSize c.sn.idx) :
    ∃ w' payload x rnd, process false (fuel + 1) (n + 1) worldBus secs (w, c) =
        (.ok c.timeout, (w', { c with ip := .unspecified, xid := x, rand := rnd, state := .selecting, stateTimeout := some secs })) ∧
      w'.chip.sent = w.chip.sent ++ [⟨c.sn.idx, c.broadcastAddr.ip.octets, c.broadcastAddr.port.toNat, payload⟩] ∧
      decode payload = some (discoverMessage c.mac c.hostname x) ∧ RxState w'.chip c.sn.idx 0 ∧ TxState w'.chip c.sn.idx ∧
      w'.chip.destIp c.sn.idx = c.broadcastAddr.ip.octets ∧ w'.chip.destPort c.sn.idx = c.broadcastAddr.port.toNat := by
  obtain ⟨w1, h1, h2, h3⟩ := clearIr_mem0 c.sn w
  have hl1 : linkUp w1.chip = true := by unfold linkUp at hl ⊢; rw [h3]; exact hl
  have hcalm := h2.trans (calm_tick c.sn.idx w1)
  have hpr : process false (fuel + 1) (n + 1) worldBus secs (w, c) = (packets false (fuel + 1) worldBus secs (n + 1) >>= fun r => match r with
      | some v => pure v
      | none => timers false (fuel + 1) worldBus secs >>= fun _ => getC >>= fun c => M.ofExcept (c.nextCall false secs)) (w1.tick, c) := by
    unfold process
    rw [M.bind_ok (show getC (w, c) = (.ok c, (w, c)) from rfl), bind_onBus, h1]
    dsimp only
    rw [bind_onBus, linkDown_run c w1 hi, hl1]
    rfl
  have st1 : Steady c.sn.idx w1 := by
    have := clearIr_steady c.sn w c.sn.idx hst
    rw [h1] at this; exact this
  obtain ⟨w2, h4, hlat⟩ := packets_empty (fuel + 1) n secs c base p w1.tick (hcalm.rx _ _ hb) (hcalm.pending _ _ hp)
  rw [M.bind_ok h4] at hpr
  dsimp only at hpr
  have st2 : Steady c.sn.idx w2 := by
    obtain ⟨j, rfl⟩ := hlat
    exact st1.tick.1.ticks j
  have hc2 := hcalm.trans (hlat.calm c.sn.idx)
  obtain ⟨x, rnd, hx⟩ := restarted_eq c
  have hset : ∃ w3, worldBus.setSipr Ipv4.unspecified w2 = (.ok (), w3) ∧ Calm c.sn.idx w2 w3 ∧ Steady c.sn.idx w3 :=
    ⟨_, rfl, (calm_tick _ w2).trans (calm_common c.sn.idx 15 0 0 0 0 w2.tick (by omega)), st2.tick.1⟩
  obtain ⟨w3, h5, hc3, st3⟩ := hset
  have hc := hc2.trans hc3
  have hs3 : Sizes w3.chip c.sn.idx := by
    refine ⟨?_, ?_, ?_, ?_⟩ <;> first | rw [hc.rxs] | rw [hc.txs]
    · exact hs.1
    · exact hs.2
    · exact hs.3
    · exact hs.4
  obtain ⟨w4, h6, -, -⟩ := (C95_opens false (fuel + 1) c.sn (.bind c.srcPort) w3 (by omega) st3).resolve_left (fun h => by cases h.1)
  change udpBind false (fuel + 1) worldBus c.sn c.srcPort w3 = _ at h6
  obtain ⟨r1, r2, r3, r4⟩ := udpBind_room false (fuel + 1) c.sn c.srcPort w3 w4 hs3 h6
  have hsent : w4.chip.sent = w.chip.sent := by
    have := keepsSent_udpBind false (fuel + 1) c.sn c.srcPort w3
    rw [h6] at this
    exact this.trans hc.sent
  have hlen : (dhcpHeader c.mac x ++ discoverOptions c.mac c.hostname).length = 255 + c.hostname.length := by
    rw [List.length_append, dhcpHeader_length]; simp [discoverOptions, Eui48.octets]; omega
  rcases emitSendTo_run (dbg := false) r4 (emits_discover c.mac c.hostname x) c.broadcastAddr with ⟨w5, g1, g2, g3⟩ | ⟨e, w5, g1, -, g3⟩
  · have hd : discover false (fuel + 1) worldBus secs (w2, c) = (.ok (), (w5, { c with ip := .unspecified, xid := x, rand := rnd, state := .selecting, stateTimeout := some secs })) := by
      rw [discover_run, hx, bind_onBus]
      dsimp only
      rw [h5]
      dsimp only
      rw [bind_onBus, h6]
      dsimp only
      rw [bind_onBus, show sendDhcpDiscover false worldBus c.sn c.mac c.hostname x c.broadcastAddr w4 = _ from g1]
      rfl
    have htxo := txOnly_sendTo c.sn c.broadcastAddr (dhcpDiscover c.mac c.hostname x) w4
    rw [g1] at htxo
    obtain ⟨b', hb'⟩ := r3.at
    obtain ⟨d1, d2⟩ := dest_sendTo c.sn c.broadcastAddr _ w4 w5 g1
    refine ⟨w5, _, x, rnd, ?_, by rw [g3, hsent], decode_discover c.mac c.hostname x hv, (htxo.rx _ _ hb').state, g2, d1, d2⟩
    rw [hpr, M.bind_run, timers_init false (fuel + 1) secs w2 c hi ht, hd]
    dsimp only
    rw [M.bind_ok (show getC (w5, _) = (.ok _, (w5, _)) from rfl)]
    simp [Client.nextCall, Client.timeoutElapsed, satSub]
  · exfalso
    rw [hlen] at g3
    have := hc.txs
    rcases g3 with g3 | g3
    · omega
    · cases g3

theorem unread_calm {w w1 : World} {k base p : Nat} (hb : RxAt w.chip k base p) (h : Calm k w w1) {x : Bytes} (hq : x <+: w.chip.unread k) :
    ∃ rest, w1.chip.unread k = x ++ rest := by
  rw [hb.state.data] at hq
  rw [(h.rx _ _ hb).state.data]
  obtain ⟨t, ht⟩ := hq.trans (prefix_drop h.recvd p)
  exact ⟨t, ht.symm⟩

/-- When only this datagram is unread and nothing arrives. -/
theorem only_length {w : World} {k base p : Nat} (hb : RxAt w.chip k base p) {g : Datagram} (hq : w.chip.unread k = udpFrame g.src g.payload) :
    (w.chip.received k).length = p + (8 + g.payload.length) := by
  have h := congrArg List.length hb.state.data
  rw [hq, udpFrame_length, List.length_drop] at h
  omega

/-- An OFFER in the state `Selecting`. -/
theorem handle_offer (dbg : Bool) (fuel : Nat) (secs : UInt32) {w : World} {u : UdpReader} {d : Bytes} {pos base p : Nat} {c : Client}
    {sid : Option Bytes} (hu : UR w u c.sn d pos base p) (hd : d.length ≤ 65280) (h20 : 20 ≤ d.length) (hs : c.state = .selecting)
    (h54 : contents d 54 (fun n => n % 4 == 0 && 4 ≤ n) 4 = .ok sid)
    (hv : ValidHostname c.hostname) (ht : TxState w.chip c.sn.idx) (hroom : 275 + c.hostname.length ≤ w.chip.txFsr c.sn.idx) :
    ∃ w' payload x rnd, handle dbg fuel worldBus secs u (w, c) =
        (.ok none, (w', { c with ip := quad (field d 16 4), serverId := sid.map quad, xid := x, rand := rnd, state := .requesting, stateTimeout := some secs })) ∧
      w'.chip.sent = w.chip.sent ++ [⟨c.sn.idx, w.chip.destIp c.sn.idx, w.chip.destPort c.sn.idx, payload⟩] ∧
      decode payload = some (requestMessage c.mac (quad (field d 16 4)) c.hostname (sid.map quad) x) ∧
      RxAt w'.chip c.sn.idx base (p + (8 + d.length)) ∧ TxState w'.chip c.sn.idx ∧ w.chip.received c.sn.idx <+: w'.chip.received c.sn.idx ∧
      x = c.rand.nextU32.1 ∧ (Still c.sn.idx w → Still c.sn.idx w' ∧ w'.chip.received c.sn.idx = w.chip.received c.sn.idx) := by
  have gm := gives_list hd 54 (Reached.start.ok hd)
  rw [h54] at gm
  obtain ⟨w1, u1, r1, l1, hu1⟩ := hu.run_ok (run_yiaddr h20 pos)
  obtain ⟨c2, p2, k2, -, e2⟩ := gm 20 h20
  obtain ⟨w2, u2, r2, l2, hu2⟩ := hu1.run_ok e2
  obtain ⟨w3, r3, hb3, hpre, h5⟩ := hu2.done_calm
  have kk : TxCalm c.sn.idx w w3 := ((l1.trans l2).calm c.sn.idx).toTxCalm.trans h5
  have hrun : handle dbg fuel worldBus secs u (w, c) =
      ((request worldBus >>= fun _ => modC (Client.setStateWithTimeout .requesting secs)) >>= fun _ => pure none)
        (w3, { c with ip := quad (field d 16 4), serverId := sid.map quad }) := by
    unfold handle
    rw [M.bind_ok (show getC (w, c) = (.ok c, (w, c)) from rfl), hs]
    dsimp only
    unfold onOffer
    rw [bind_assoc, bind_onBus, r1]
    dsimp only
    rw [bind_assoc, M.bind_ok (show modC (fun c => { c with ip := quad (field d 16 4) }) (w1, c) =
      (.ok (), (w1, { c with ip := quad (field d 16 4) })) from rfl), bind_assoc, bind_onBus]
    rw [show onUdpReader worldBus u1 (dhcpServer .empty) w1 = _ from r2]
    dsimp only
    rw [bind_assoc, M.bind_ok (show modC (fun c => { c with serverId := sid.map quad }) (w2, { c with ip := quad (field d 16 4) }) =
      (.ok (), (w2, { c with ip := quad (field d 16 4), serverId := sid.map quad })) from rfl), bind_assoc, bind_onBus, r3]
    dsimp only
    rw [hs]
  have hreq := request_client (b := worldBus) w3 { c with ip := quad (field d 16 4), serverId := sid.map quad }
  obtain ⟨x, rnd, hx⟩ := rexid_eq { c with ip := quad (field d 16 4), serverId := sid.map quad }
  rw [hx] at hreq
  dsimp only at hreq
  have hstill : Still c.sn.idx w → Still c.sn.idx w3 ∧ w3.chip.received c.sn.idx = w.chip.received c.sn.idx := by
    intro h
    obtain ⟨j, hj⟩ := l1.trans l2
    have key : ∀ (j : Nat) (w : World), Still c.sn.idx w → Still c.sn.idx (World.ticks j w) ∧ (World.ticks j w).chip.received c.sn.idx = w.chip.received c.sn.idx := by
      intro j
      induction j with
      | zero => intro w h; exact ⟨h, rfl⟩
      | succ j ih => intro w h; exact ⟨(ih w.tick h.tick.1).1, (ih w.tick h.tick.1).2.trans h.tick.2⟩
    have h2 := key j w h
    rw [← hj] at h2
    have h3 := (done_pending u2 w2 c.sn.idx).2 h2.1
    rw [r3] at h3
    exact ⟨h3.1, h3.2.trans h2.2⟩
  have hl : (dhcpHeader c.mac x ++ requestOptions c.mac (quad (field d 16 4)) c.hostname (sid.map quad)).length ≤ 275 + c.hostname.length := by
    rw [List.length_append, dhcpHeader_length]
    cases sid <;> simp [requestOptions, Eui48.octets, Ipv4.octets, serverIdOption] <;> omega
  rcases emitSend_run (kk.tx ht) (emits_request c.mac (quad (field d 16 4)) c.hostname (sid.map quad) x) with ⟨w4, g1, g2, g3⟩ | ⟨e, w4, -, -, g3⟩
  · have hto := txOnly_emitSend c.sn (dhcpRequest c.mac (quad (field d 16 4)) c.hostname (sid.map quad) x) w3
    rw [g1] at hto
    rw [show sendDhcpRequest worldBus c.sn c.mac (quad (field d 16 4)) c.hostname (sid.map quad) x w3 = _ from g1] at hreq
    rw [bind_assoc, M.bind_ok hreq] at hrun
    refine ⟨w4, _, x, rnd, hrun, ?_, decode_request c.mac _ c.hostname _ x hv, hto.rx _ _ hb3, g2, (((l1.trans l2).calm c.sn.idx).recvd.trans hpre).trans hto.pre, (congrArg Client.xid hx).symm, fun h => ?_⟩
    · rw [g3, kk.sent, kk.dip, kk.dport]
    · have := hto.still (hstill h).1
      exact ⟨this.1, this.2.trans (hstill h).2⟩
  · exfalso
    have := kk.free ht
    omega

theorem clearIr_still (sn : Sn) (w : World) (k : Nat) (h : Still k w) :
    Still k (clearIr worldBus sn w).2 ∧ (clearIr worldBus sn w).2.chip.received k = w.chip.received k := by
  unfold clearIr
  have hir : ∃ ir, worldBus.snIr sn w = (.ok ir, w.tick) := ⟨_, rfl⟩
  obtain ⟨ir, hir⟩ := hir
  rw [M.bind_ok hir]
  by_cases hr : ir.anyRaised = true
  · rw [if_pos hr, run_setSnIr]; exact ⟨h.tick.1.tick.1, h.tick.1.tick.2.trans h.tick.2⟩
  · rw [if_neg hr]; exact h.tick

/-- `process` up to the packets, for a client that has started. -/
theorem process_started (fuel n : Nat) (secs : UInt32) (w : World) (c : Client) (hs : c.state ≠ .init) :
    ∃ w1, Calm c.sn.idx w w1 ∧ (Still c.sn.idx w → Still c.sn.idx w1 ∧ w1.chip.received c.sn.idx = w.chip.received c.sn.idx) ∧
      process false fuel n worldBus secs (w, c) = (packets false fuel worldBus secs n >>= fun r => match r with
      | some v => pure v
      | none => timers false fuel worldBus secs >>= fun _ => getC >>= fun c => M.ofExcept (c.nextCall false secs)) (w1, c) := by
  obtain ⟨w1, h1, h2⟩ := clearIr_calm c.sn w
  have h3 := clearIr_still c.sn w c.sn.idx
  rw [h1] at h3
  refine ⟨w1, h2, h3, ?_⟩
  unfold process
  rw [M.bind_ok (show getC (w, c) = (.ok c, (w, c)) from rfl), bind_onBus, h1]
  dsimp only
  rw [bind_onBus]
  unfold linkDown
  rw [if_neg hs]
  rfl

theorem later_still {k : Nat} {w w' : World} (hl : Later w w') (h : Still k w) : Still k w' ∧ w'.chip.received k = w.chip.received k := by
  obtain ⟨j, rfl⟩ := hl
  induction j generalizing w with
  | zero => exact ⟨h, rfl⟩
  | succ j ih => exact ⟨(ih h.tick.1).1, (ih h.tick.1).2.trans h.tick.2⟩

/-- The call that answers an OFFER. -/
theorem call_offer (fuel n : Nat) (secs : UInt32) (w : World) (c : Client) (base p : Nat) (g : Datagram) (sid : Option Bytes)
    (hs : c.state = .selecting) (hb : RxAt w.chip c.sn.idx base p) (hq : w.chip.unread c.sn.idx = udpFrame g.src g.payload)
    (hst : Still c.sn.idx w) (hx : HasXid g.payload c.xid) (hop : g.payload.head? ≠ some 1) (hlen : g.payload.length ≤ 65280)
    (h20 : 20 ≤ g.payload.length) (h54 : contents g.payload 54 (fun n => n % 4 == 0 && 4 ≤ n) 4 = .ok sid)
    (hv : ValidHostname c.hostname) (ht : TxState w.chip c.sn.idx) (hroom : 275 + c.hostname.length ≤ w.chip.txFsr c.sn.idx) :
    ∃ w' payload x rnd, process false fuel (n + 2) worldBus secs (w, c) =
        (.ok c.timeout, (w', { c with ip := quad (field g.payload 16 4), serverId := sid.map quad, xid := x, rand := rnd, state := .requesting, stateTimeout := some secs })) ∧
      w'.chip.sent = w.chip.sent ++ [⟨c.sn.idx, w.chip.destIp c.sn.idx, w.chip.destPort c.sn.idx, payload⟩] ∧
      decode payload = some (requestMessage c.mac (quad (field g.payload 16 4)) c.hostname (sid.map quad) x) ∧
      RxState w'.chip c.sn.idx (p + (8 + g.payload.length)) ∧ TxState w'.chip c.sn.idx := by
  obtain ⟨w1, k1, s1, hpr⟩ := process_started fuel (n + 2) secs w c (by rw [hs]; decide)
  have s1 := s1 hst
  have hb1 := k1.rx _ _ hb
  obtain ⟨rest', hq1⟩ := unread_calm hb k1 (x := udpFrame g.src g.payload) (by rw [hq]; exact List.prefix_refl _)
  obtain ⟨u, w2, h1, h2, h3⟩ := (recv_match false c.sn c.xid base p w1 g rest' hb1 (by omega) hq1 hx hop).resolve_right (fun h => by cases h.1)
  have k2 := k1.trans (h2.calm c.sn.idx)
  have s2 := later_still h2 s1.1
  obtain ⟨w3, payload, x, rnd, e1, e2, e3, e4, e5, -, -, e6⟩ := handle_offer false fuel secs h3 hlen h20 hs h54 hv (k2.tx ht)
    (Nat.le_trans hroom (k2.free ht))
  have s3 := e6 s2.1
  have hemp : Empty c.sn.idx (p + (8 + g.payload.length)) w3 :=
    empty_of s3.1 (by rw [s3.2, s2.2, s1.2]; exact only_length hb hq)
  obtain ⟨w4, e7, e8⟩ := packets_empty fuel n secs { c with ip := quad (field g.payload 16 4), serverId := sid.map quad, xid := x, rand := rnd, state := .requesting, stateTimeout := some secs }
    base _ w3 e4 hemp
  have hpk : packets false fuel worldBus secs (n + 2) (w1, c) = (.ok none, (w4, { c with ip := quad (field g.payload 16 4), serverId := sid.map quad, xid := x, rand := rnd, state := .requesting, stateTimeout := some secs })) := by
    rw [packets.eq_2, M.bind_ok (show getC (w1, c) = (.ok c, (w1, c)) from rfl), bind_onBus, h1]
    dsimp only
    rw [M.bind_ok e1]
    exact e7
  have k4 := e8.calm c.sn.idx
  refine ⟨w4, payload, x, rnd, ?_, ?_, e3, (k4.rx _ _ e4).state, k4.tx e5⟩
  · rw [hpr, M.bind_ok hpk]
    exact timers_fresh fuel secs w4 _ rfl
  · rw [k4.sent, e2, k2.sent, k2.dip, k2.dport]

theorem ticks_mem0 (j : Nat) (w : World) (a : Nat) : (World.ticks j w).chip.mem 0 a = w.chip.mem 0 a := by
  induction j generalizing w with
  | zero => rfl
  | succ j ih => exact (ih w.tick).trans (tick_mem0 w a)

/-- The call that takes an ACK. -/
theorem call_ack (fuel n : Nat) (secs : UInt32) (w : World) (c : Client) (base p : Nat) (g : Datagram) (a : Ack)
    (hs : c.state = .requesting) (hb : RxAt w.chip c.sn.idx base p) (hq : w.chip.unread c.sn.idx = udpFrame g.src g.payload)
    (hst : Still c.sn.idx w) (hx : HasXid g.payload c.xid) (hop : g.payload.head? ≠ some 1) (hlen : g.payload.length ≤ 65280)
    (ha : IsAck g.payload a) {m gw : Bytes} (hm : a.mask = some m) (hg : a.server = some gw) :
    ∃ w', process false fuel (n + 2) worldBus secs (w, c) = (.ok (acked c secs a).t1, (w', acked c secs a)) ∧
      w'.chip.sent = w.chip.sent ∧ w'.chip.subnet = m ∧ w'.chip.gateway = gw ∧ w'.chip.ownIp = c.ip.octets ∧
      RxState w'.chip c.sn.idx (p + (8 + g.payload.length)) := by
  obtain ⟨w1, k1, s1, hpr⟩ := process_started fuel (n + 2) secs w c (by rw [hs]; decide)
  have s1 := s1 hst
  have hb1 := k1.rx _ _ hb
  obtain ⟨rest', hq1⟩ := unread_calm hb k1 (x := udpFrame g.src g.payload) (by rw [hq]; exact List.prefix_refl _)
  obtain ⟨u, w2, h1, h2, h3⟩ := (recv_match false c.sn c.xid base p w1 g rest' hb1 (by omega) hq1 hx hop).resolve_right (fun h => by cases h.1)
  have k2 := k1.trans (h2.calm c.sn.idx)
  have s2 := later_still h2 s1.1
  obtain ⟨w3, e1, e2, -, e4, e5, e6, e7, e8⟩ := handle_ack false fuel secs h3 hlen ha (.inl hs) (.inl (by rw [hm]; rfl)) (.inl (by rw [hg]; rfl))
  have hemp : Empty c.sn.idx (p + (8 + g.payload.length)) w3 :=
    e8 _ _ (empty_of s2.1 (by rw [s2.2, s1.2]; exact only_length hb hq))
  obtain ⟨w4, e9, e10⟩ := packets_empty fuel n secs (acked c secs a) base _ w3 e2 hemp
  have hpk : packets false fuel worldBus secs (n + 2) (w1, c) = (.ok none, (w4, acked c secs a)) := by
    rw [packets.eq_2, M.bind_ok (show getC (w1, c) = (.ok c, (w1, c)) from rfl), bind_onBus, h1]
    dsimp only
    rw [M.bind_ok e1]
    exact e9
  have k4 := e10.calm c.sn.idx
  have hmem : ∀ a, w4.chip.mem 0 a = w3.chip.mem 0 a := by
    obtain ⟨j, rfl⟩ := e10
    exact fun a => ticks_mem0 j w3 a
  refine ⟨w4, ?_, ?_, ?_, ?_, ?_, (k4.rx _ _ e2).state⟩
  · rw [hpr, M.bind_ok hpk]
    have ht : timers false fuel worldBus secs (w4, acked c secs a) = (.ok (), (w4, acked c secs a)) := by
      rcases timers_due (b := worldBus) false fuel secs w4 (acked c secs a) with hd | ⟨hd, -⟩
      · rw [hd]
        have : dueTimer (acked c secs a) secs = none := by
          show (if (acked c secs a).lease < secs - secs then _ else if (acked c secs a).t2 < secs - secs then _ else
            if (acked c secs a).t1 < secs - secs then _ else none) = none
          have h0 : ∀ x : UInt32, ¬ x < secs - secs := by
            intro x; rw [UInt32.sub_self]; exact UInt32.not_lt_zero
          rw [if_neg (h0 _), if_neg (h0 _), if_neg (h0 _)]
        rw [this]; rfl
      · cases hd
    dsimp only
    rw [M.bind_ok ht, M.bind_ok (show getC (w4, acked c secs a) = (.ok (acked c secs a), (w4, acked c secs a)) from rfl)]
    have : (acked c secs a).nextCall false secs = .ok (acked c secs a).t1 := by
      show Except.ok (satSub (acked c secs a).t1 (satSub secs secs)) = _
      have : satSub secs secs = 0 := by unfold satSub; rw [if_neg (UInt32.lt_irrefl _), UInt32.sub_self]
      rw [this]
      unfold satSub
      rw [if_neg UInt32.not_lt_zero, UInt32.sub_zero]
    rw [this]; rfl
  · rw [k4.sent, e4.sent, k2.sent]
  · rw [← e5 m hm]; unfold Chip.subnet; simp only [hmem]
  · rw [← e6 gw hg]; unfold Chip.gateway; simp only [hmem]
  · rw [← e7 hs]; unfold Chip.ownIp; simp only [hmem]

theorem pause_calm (k : Nat) (w : World) (es : List EnvStep) (sched : List (List EnvStep)) :
    TxSame k w (w.pause es sched) ∧ (∀ base p, RxAt w.chip k base p → RxAt (w.pause es sched).chip k base p) ∧
      w.chip.received k <+: (w.pause es sched).chip.received k := by
  have h := calm_tick k ({ w with sched := es :: sched } : World)
  exact ⟨⟨h.tx, h.free, h.sent, h.rxs, h.txs, h.dip, h.dport⟩, h.rx, h.recvd⟩

/-- C101 (the part that holds): the whole exchange, in a release build.  A client that has not started, on a socket with an empty queue and with the link
up, is called three times.  The first call sends a DISCOVER to the broadcast address.  If by the second call the OFFER of one server has arrived
(with the transaction id of the DISCOVER) and nothing else, the second call sends the REQUEST for the address offered, naming the server, also to the broadcast
address.  If by the third call the ACK of the server has arrived (with the transaction id of the REQUEST, a mask and a server) and nothing
else, then the client has the lease: its address is the one offered, and it is in the address register of the chip; the mask and the server of the ACK are in
the mask register and the gateway register; the times are seven eighths of those of the ACK.  Each call succeeds, the first two
asking to be called again after the timeout and the last after T1; and nothing but the two messages is sent.  Whatever else the environment does to
other sockets, and to this one by making room in the transmit buffer, raising interrupts and (after the first call) changing its status, makes no difference.
Missing: another server, see `C101_second_offer_starves`. -/
theorem C101_lease_partial (fuel n : Nat) (t0 t1 t2 : UInt32) (w : World) (c : Client) (p : Nat) (es1 es2 : List EnvStep) (s1 s2 : List (List EnvStep))
    (offer ack : Datagram) (ip mask gw : Bytes) (server : Option Bytes) (a : Ack)
    (hi : c.state = .init) (hto : c.stateTimeout = none) (hl : linkUp w.chip = true) (hv : ValidHostname c.hostname)
    (hs : Sizes w.chip c.sn.toU8.toNat) (hst : Steady c.sn.toU8.toNat w) (hstill : Still c.sn.toU8.toNat w)
    (hr : RxState w.chip c.sn.toU8.toNat p) (hq : w.chip.unread c.sn.toU8.toNat = [])
    (hroom : 255 + c.hostname.length ≤ w.chip.txSize c.sn.toU8.toNat) :
    let r0 := process false (fuel + 1) (n + 2) worldBus t0 (w, c)
    let w1 := r0.2.1.pause es1 s1
    let r1 := process false (fuel + 1) (n + 2) worldBus t1 (w1, r0.2.2)
    let w2 := r1.2.1.pause es2 s2
    let r2 := process false (fuel + 1) (n + 2) worldBus t2 (w2, r1.2.2)
    OnlyArrived c.sn.toU8.toNat w1 offer → IsOffer offer.payload ip server → HasXid offer.payload r0.2.2.xid →
    275 + c.hostname.length ≤ w1.chip.txFsr c.sn.toU8.toNat →
    OnlyArrived c.sn.toU8.toNat w2 ack → IsAck ack.payload a → ack.payload.head? = some 2 → ack.payload.length ≤ 65280 →
    HasXid ack.payload r1.2.2.xid → a.mask = some mask → a.server = some gw →
    r0.1 = .ok c.timeout ∧ r1.1 = .ok c.timeout ∧ (∃ v, r2.1 = .ok v ∧ v.toNat = derate a.t1Secs) ∧
    (∃ discoverPayload requestPayload,
      r2.2.1.chip.sent = w.chip.sent ++ [⟨c.sn.toU8.toNat, c.broadcastAddr.ip.octets, c.broadcastAddr.port.toNat, discoverPayload⟩,
        ⟨c.sn.toU8.toNat, c.broadcastAddr.ip.octets, c.broadcastAddr.port.toNat, requestPayload⟩] ∧
      decode discoverPayload = some (discoverMessage c.mac c.hostname r0.2.2.xid) ∧
      ∃ reqIp reqServer, decode requestPayload = some (requestMessage c.mac reqIp c.hostname reqServer r1.2.2.xid) ∧
        reqIp.octets = ip ∧ reqServer.map Ipv4.octets = server) ∧
    r2.2.2.leasedIp.map Ipv4.octets = some ip ∧ r2.2.1.chip.ownIp = ip ∧ r2.2.1.chip.subnet = mask ∧ r2.2.1.chip.gateway = gw ∧
    r2.2.2.leaseSecs = t2 ∧ r2.2.2.lease.toNat = derate a.leaseSecs ∧ r2.2.2.t1.toNat = derate a.t1Secs ∧ r2.2.2.t2.toNat = derate a.t2Secs := by
  obtain ⟨base, hb⟩ := hr.at
  have hp0 : (w.chip.received c.sn.idx).length = p := by
    have h1 : (w.chip.unread c.sn.idx).length = ((w.chip.received c.sn.idx).drop p).length := congrArg List.length hb.state.data
    change w.chip.unread c.sn.idx = [] at hq
    rw [hq, List.length_drop] at h1
    have h2 : p ≤ (w.chip.received c.sn.idx).length := hb.rx.le
    simp at h1
    omega
  obtain ⟨w0', pl0, x0, rnd0, e0, f1, f2, f3, f4, f5, f6⟩ :=
    call_start fuel (n + 1) t0 w c base p hi hto hl hv hs hst hb (empty_of hstill hp0) hroom
  intro r0 w1
  have hr0 : r0 = _ := e0
  clear_value r0
  subst hr0
  intro r1 w2 r2 hoa hof hox hrm haa hak hahd halen hax hmask hserver
  obtain ⟨k1, k2, -⟩ := pause_calm c.sn.idx w0' es1 s1
  obtain ⟨base1, hb1⟩ := f3.at
  have hq2 : quad (Dhcp.field offer.payload 16 4) = quad ip := by rw [hof.yiaddr]
  have hip : (quad ip).octets = ip := quad_octets (by rw [← hof.yiaddr]; unfold Dhcp.field; have := hof.long; simp; omega)
  have hsv : (server.map quad).map Ipv4.octets = server := by
    have := hof.server
    rcases server with _ | x
    · rfl
    · simp only [Option.map_some]; rw [quad_octets (contents_length this)]
  obtain ⟨w1', pl1, x1, rnd1, e1, g1, g2, g3, g4⟩ := call_offer (fuel + 1) n t1 w1
    { c with ip := .unspecified, xid := x0, rand := rnd0, state := .selecting, stateTimeout := some t0 } base1 0 offer server rfl (k2 _ _ hb1) hoa.unread hoa.silent
    hox (by rw [hof.reply]; decide) hof.short hof.long hof.server hv (k1.tx f4) hrm
  have hr1 : r1 = _ := e1
  clear_value r1
  subst hr1
  obtain ⟨k3, k4, -⟩ := pause_calm c.sn.idx w1' es2 s2
  obtain ⟨base2, hb2⟩ := g3.at
  obtain ⟨w2', e2, i1, i2, i3, i4, i5⟩ := call_ack (fuel + 1) n t2 w2
    { c with ip := quad (Dhcp.field offer.payload 16 4), serverId := server.map quad, xid := x1, rand := rnd1, state := .requesting, stateTimeout := some t1 }
    base2 _ ack a rfl (k4 _ _ hb2) haa.unread haa.silent hax (by rw [hahd]; decide) halen hak hmask hserver
  have hr2 : r2 = _ := e2
  clear_value r2
  subst hr2
  obtain ⟨t1', t2', t3'⟩ := ack_times hak
  refine ⟨rfl, rfl, ⟨_, rfl, ?_⟩, ⟨pl0, pl1, ?_, f2, _, _, g2, ?_, hsv⟩, ?_, ?_, i2, i3, rfl, ?_, ?_, ?_⟩
  · rw [← t2']; exact derate_toNat _
  · dsimp only
    have hd1 : w1.chip.destIp c.sn.idx = c.broadcastAddr.ip.octets := k1.dip.trans f5
    have hd2 : w1.chip.destPort c.sn.idx = c.broadcastAddr.port.toNat := k1.dport.trans f6
    have hs1 : w1.chip.sent = w0'.chip.sent := k1.sent
    have hs2 : w2.chip.sent = w1'.chip.sent := k3.sent
    rw [i1, hs2, g1, hs1, f1]
    simp only [List.append_assoc, List.cons_append, List.nil_append]
    change _ ++ [_, (⟨c.sn.idx, w1.chip.destIp c.sn.idx, w1.chip.destPort c.sn.idx, pl1⟩ : Sent)] = _
    rw [hd1, hd2]
  · rw [hq2]; exact hip
  · show some ((quad (Dhcp.field offer.payload 16 4)).octets) = some ip
    rw [hq2, hip]
  · rw [i4]
    show (quad (Dhcp.field offer.payload 16 4)).octets = ip
    rw [hq2, hip]
  · rw [← t1']; exact derate_toNat _
  · rw [← t2']; exact derate_toNat _
  · rw [← t3']; exact derate_toNat _

/-! ## Two servers -/

theorem run_check_other {d : Bytes} {x xid : UInt32} (h : HasXid d x) (hne : xid ≠ x) :
    ∃ cur, (checkProg xid).run cursorOps ⟨d, 0⟩ = (.ok false, cur) := by
  obtain ⟨h8, hx⟩ := h
  unfold checkProg isBootreply pktXid
  rw [RProg.bind_ok (a := decide ((d.drop 0).take 1 = [1])) (s' := ⟨d, 0 + 1⟩) (by
    rw [RProg.bind_ok (cur_seekStart (o := 0) (by simp)), RProg.bind_ok (cur_readExact (by show 1 ≤ d.length - 0; omega))]
    rfl)]
  by_cases hop : decide ((d.drop 0).take 1 = [1]) = true
  · rw [if_pos hop]; exact ⟨_, rfl⟩
  rw [if_neg hop]
  rw [RProg.bind_ok (a := quadU32 (quad ((d.drop 4).take 4))) (s' := ⟨d, 4 + 4⟩) (by
    rw [RProg.bind_ok (cur_seekStart (o := 4) (by show 4 ≤ _; omega)), RProg.bind_ok (cur_readExact (by show 4 ≤ d.length - 4; omega))]
    rfl)]
  have h1 : quadU32 (quad ((d.drop 4).take 4)) = x := by
    apply UInt32.toNat_inj.mp
    rw [quad_num (by simp; omega), ← hx]; rfl
  rw [h1]
  have : decide (x = xid) = false := by simp only [decide_eq_false_iff_not]; exact fun e => hne e.symm
  rw [this]
  exact ⟨_, rfl⟩

/-- A packet with another transaction id is where the packets end. -/
theorem packets_other (fuel n : Nat) (secs : UInt32) (c : Client) (base p : Nat) (w : World) (g : Datagram) (rest : Bytes) (x : UInt32)
    (hb : RxAt w.chip c.sn.idx base p) (hq : w.chip.unread c.sn.idx = udpFrame g.src g.payload ++ rest) (hlen : g.payload.length < 65536)
    (hx : HasXid g.payload x) (hne : c.xid ≠ x) : ∃ w1, packets false fuel worldBus secs (n + 1) (w, c) = (.ok none, (w1, c)) ∧ Later w w1 := by
  unfold packets
  rw [M.bind_ok (show getC (w, c) = (.ok c, (w, c)) from rfl), bind_onBus]
  unfold recv
  obtain ⟨u, w1, h1, h2, h3, -⟩ := (udpReader_UR false c.sn base p w g rest hb hlen hq).resolve_right (fun h => by cases h.1)
  rw [h1]
  dsimp only
  unfold recvCheck
  rw [if_neg h3.not_truncated]
  obtain ⟨cur, hc⟩ := run_check_other hx hne
  have := h3.run (checkProg c.xid)
  rw [hc] at this
  obtain ⟨w', u', e1, e2, _⟩ := this
  rw [M.bind_ok e1]
  exact ⟨w', rfl, h2.trans e2⟩

/-- A packet with another transaction id at the head of the queue: every call before the timeout leaves the client as it is, whatever arrives. -/
theorem laterCalls_rejected (fuel n : Nat) (c : Client) (p : Nat) (g : Datagram) (hs : c.state ≠ .init) (since : UInt32) (hto : c.stateTimeout = some since)
    (hlen : g.payload.length < 65536) (hx : Rejected g.payload c.xid) (calls : List (List EnvStep × UInt32 × List (List EnvStep)))
    (hc : ∀ x ∈ calls, x.2.1 - since ≤ c.timeout) (w : World) (hr : RxState w.chip c.sn.toU8.toNat p)
    (hq : udpFrame g.src g.payload <+: w.chip.unread c.sn.toU8.toNat) : (laterCalls false fuel n calls (w, c)).2 = c := by
  induction calls generalizing w with
  | nil => rfl
  | cons x calls ih =>
    obtain ⟨es, t, sched⟩ := x
    unfold laterCalls
    obtain ⟨base, hb⟩ := hr.at
    obtain ⟨-, k2, k3⟩ := pause_calm c.sn.idx w es sched
    have hb1 := k2 _ _ hb
    obtain ⟨rest, hrest⟩ : udpFrame g.src g.payload <+: (w.pause es sched).chip.unread c.sn.idx := by
      rw [hb1.state.data]
      change _ <+: w.chip.unread c.sn.idx at hq
      rw [hb.state.data] at hq
      exact hq.trans (prefix_drop k3 p)
    have hd : dueTimer c t = none := by
      unfold dueTimer
      rw [hto]
      dsimp only
      rw [if_neg (UInt32.not_lt.mpr (hc _ List.mem_cons_self))]
    obtain ⟨h1, h2, h3⟩ := C39_rejected_packet_stays false fuel n t (w.pause es sched) c p g rest hs hb1.state hrest.symm hlen hx hd
    have := ih (fun x hx => hc x (List.mem_cons_of_mem _ hx)) _ h2 h3
    have e : (process false fuel n worldBus t (w.pause es sched, c)).2 = ((process false fuel n worldBus t (w.pause es sched, c)).2.1, c) :=
      Prod.ext rfl h1
    show (laterCalls false fuel n calls (process false fuel n worldBus t (w.pause es sched, c)).2).2 = c
    rw [e]
    exact this

/-- C101 is false in this: with two servers the client gets no lease from the first.  If, when the first OFFER is answered, the OFFER of a
second server (with the transaction id of the DISCOVER, as it must be) is in the queue behind it, then the REQUEST is sent, but from then on until the
timeout no call changes the client, whatever arrives: the ACK is not seen.  (The client draws a new transaction id for the REQUEST, and it
leaves a packet with another one in the queue.) -/
theorem C101_second_offer_starves (fuel n m : Nat) (t : UInt32) (w : World) (c : Client) (p : Nat) (first second : Datagram) (rest ip : Bytes) (server : Option Bytes)
    (hs : c.state = .selecting) (hr : RxState w.chip c.sn.toU8.toNat p) (ht : TxState w.chip c.sn.toU8.toNat)
    (hq : w.chip.unread c.sn.toU8.toNat = udpFrame first.src first.payload ++ (udpFrame second.src second.payload ++ rest))
    (h1 : IsOffer first.payload ip server) (hx1 : HasXid first.payload c.xid) (hx2 : HasXid second.payload c.xid)
    (hlen : second.payload.length < 65536) (hne : c.rand.nextU32.1 ≠ c.xid)
    (hv : ValidHostname c.hostname) (hroom : 275 + c.hostname.length ≤ w.chip.txFsr c.sn.toU8.toNat) :
    let r := process false fuel (n + 2) worldBus t (w, c)
    r.1 = .ok c.timeout ∧ r.2.2.state = .requesting ∧ r.2.2.ip.octets = ip ∧ r.2.1.chip.sent.length = w.chip.sent.length + 1 ∧
    ∀ calls : List (List EnvStep × UInt32 × List (List EnvStep)), (∀ x ∈ calls, x.2.1 - t ≤ c.timeout) →
      (laterCalls false fuel m calls r.2).2 = r.2.2 := by
  obtain ⟨base, hb⟩ := hr.at
  change w.chip.unread c.sn.idx = _ at hq
  change RxAt w.chip c.sn.idx base p at hb
  obtain ⟨w1, k1, -, hpr⟩ := process_started fuel (n + 2) t w c (by rw [hs]; decide)
  have hb1 := k1.rx _ _ hb
  obtain ⟨rest1, hq1⟩ := unread_calm hb k1 (x := udpFrame first.src first.payload ++ (udpFrame second.src second.payload ++ rest)) (by rw [hq]; exact List.prefix_refl _)
  rw [List.append_assoc] at hq1
  obtain ⟨u, w2, g1, g2, g3⟩ := (recv_match false c.sn c.xid base p w1 first _ hb1 (by have := h1.short; omega) hq1 hx1 (by rw [h1.reply]; decide)).resolve_right (fun h => by cases h.1)
  have k2 := k1.trans (g2.calm c.sn.idx)
  obtain ⟨w3, payload, x, rnd, e1, e2, e3, e4, e5, e6, e7, -⟩ := handle_offer false fuel t g3 h1.short h1.long hs h1.server hv (k2.tx ht)
    (Nat.le_trans hroom (k2.free ht))
  have hpre : udpFrame second.src second.payload <+: (w3.chip.received c.sn.idx).drop (p + (8 + first.payload.length)) := by
    have hd : (w.chip.received c.sn.idx).drop p = udpFrame first.src first.payload ++ (udpFrame second.src second.payload ++ rest) := by
      rw [← hq, hb.state.data]
    have hd2 : (w.chip.received c.sn.idx).drop (p + (8 + first.payload.length)) = udpFrame second.src second.payload ++ rest := by
      rw [← List.drop_drop, hd]
      rw [List.drop_append_of_le_length (by rw [udpFrame_length]; omega), List.drop_eq_nil_of_le (by rw [udpFrame_length]; omega)]
      rfl
    refine List.IsPrefix.trans ?_ (prefix_drop (k2.recvd.trans e6) _)
    rw [hd2]
    exact List.prefix_append _ _
  obtain ⟨rest3, hq3⟩ : udpFrame second.src second.payload <+: w3.chip.unread c.sn.idx := by rw [e4.state.data]; exact hpre
  obtain ⟨w4, e8, e9⟩ := packets_other fuel n t { c with ip := quad (Dhcp.field first.payload 16 4), serverId := server.map quad, xid := x, rand := rnd, state := .requesting, stateTimeout := some t }
    base _ w3 second rest3 c.xid e4 hq3.symm hlen hx2 (by rw [e7]; exact hne)
  have hpk : packets false fuel worldBus t (n + 2) (w1, c) = (.ok none, (w4, { c with ip := quad (Dhcp.field first.payload 16 4), serverId := server.map quad, xid := x, rand := rnd, state := .requesting, stateTimeout := some t })) := by
    rw [packets.eq_2, M.bind_ok (show getC (w1, c) = (.ok c, (w1, c)) from rfl), bind_onBus, g1]
    dsimp only
    rw [M.bind_ok e1]
    exact e8
  have k4 := e9.calm c.sn.idx
  intro r
  have hr' : r = (.ok c.timeout, (w4, { c with ip := quad (Dhcp.field first.payload 16 4), serverId := server.map quad, xid := x, rand := rnd, state := .requesting, stateTimeout := some t })) := by
    show process false fuel (n + 2) worldBus t (w, c) = _
    rw [hpr, M.bind_ok hpk]
    exact timers_fresh fuel t w4 _ rfl
  clear_value r
  subst hr'
  have b4 := k4.rx _ _ e4
  refine ⟨rfl, rfl, ?_, ?_, fun calls hc => ?_⟩
  · show (quad (Dhcp.field first.payload 16 4)).octets = ip
    rw [h1.yiaddr]
    exact quad_octets (by rw [← h1.yiaddr]; unfold Dhcp.field; have := h1.long; simp; omega)
  · show w4.chip.sent.length = _
    rw [k4.sent, e2, k2.sent]; simp
  · refine laterCalls_rejected fuel m { c with ip := quad (Dhcp.field first.payload 16 4), serverId := server.map quad, xid := x, rand := rnd, state := .requesting, stateTimeout := some t }
      (p + (8 + first.payload.length)) second ?_ t rfl hlen (.inr ?_) calls hc w4 b4.state ?_
    · exact fun h => by cases h
    · intro h
      have : x = c.xid := UInt32.toNat_inj.mp (h.2.symm.trans hx2.2)
      exact hne (e7 ▸ this)
    · show _ <+: w4.chip.unread c.sn.idx
      rw [b4.state.data]
      exact hpre.trans (prefix_drop k4.recvd _)

/-! ## The hypotheses are met -/

/-- A client that has not started. -/
def freshClient : Client := Client.new .sn5 1 ⟨2, 0, 17, 34, 51, 68⟩ [104]

/-- The OFFER of 10.10.10.10 by the server `s` with the transaction id of the DISCOVER of this client. -/
def firstOffer (s : UInt8) : Bytes :=
  [2, 1, 6, 0, 220, 144, 114, 178] ++ List.replicate 8 0 ++ [10, 10, 10, 10] ++ List.replicate 216 0 ++ [99, 130, 83, 99] ++
    [53, 1, 2, 54, 4, 10, 0, 0, s, 255]

/-- The ACK with the transaction id of the REQUEST of this client. -/
def firstAck : Bytes :=
  [2, 1, 6, 0, 41, 49, 34, 208] ++ List.replicate 228 0 ++ [99, 130, 83, 99] ++
    [53, 1, 5, 1, 4, 255, 255, 255, 0, 3, 4, 10, 0, 0, 254, 54, 4, 10, 0, 0, 1, 6, 4, 8, 8, 8, 8, 51, 4, 0, 0, 3, 232, 255]

def afterDiscover : Except Err UInt32 × World × Client := process false 9 3 worldBus 100 (linkedWorld [], freshClient)
def offered : World := afterDiscover.2.1.pause [.free 5 3, .arrive 5 (udpFrame server (firstOffer 1))] []
def afterRequest : Except Err UInt32 × World × Client := process false 9 3 worldBus 101 (offered, afterDiscover.2.2)
def acknowledged : World := afterRequest.2.1.pause [.free 5 500, .arrive 5 (udpFrame server firstAck)] []

theorem freshClient_hostname : ValidHostname freshClient.hostname :=
  ⟨by decide, by decide, [[104]], by decide, by decide, by unfold ValidLabel isAlnum; decide⟩

theorem firstAck_is : IsAck firstAck sampleAckData :=
  ⟨by decide +kernel, by decide +kernel, by decide +kernel, by decide +kernel, by decide +kernel, by decide +kernel, by decide +kernel, by decide +kernel⟩

theorem firstOffer_is : IsOffer (firstOffer 1) [10, 10, 10, 10] (some [10, 0, 0, 1]) :=
  ⟨by decide +kernel, by decide +kernel, by decide +kernel, by decide +kernel, by decide +kernel, by decide +kernel⟩

example : freshClient.state = .init ∧ freshClient.stateTimeout = none ∧ linkUp (linkedWorld []).chip = true ∧ (linkedWorld []).chip.unread 5 = [] ∧
    255 + 1 ≤ (linkedWorld []).chip.txSize 5 ∧ (linkedWorld []).sched = [] := by decide +kernel
example : RxState (linkedWorld []).chip 5 0 ∧ Sizes (linkedWorld []).chip 5 :=
  ⟨⟨by decide +kernel, by decide +kernel, by decide +kernel, by decide +kernel, by decide +kernel, by decide +kernel⟩,
    ⟨by decide +kernel, by decide +kernel, by decide +kernel, by decide +kernel⟩⟩

set_option maxRecDepth 8000 in
example : OnlyArrived 5 offered ⟨server, firstOffer 1⟩ ∧ HasXid (firstOffer 1) afterDiscover.2.2.xid ∧ 275 + 1 ≤ offered.chip.txFsr 5 :=
  ⟨⟨by decide +kernel, nofun⟩, by decide +kernel, by decide +kernel⟩

set_option maxRecDepth 8000 in
example : OnlyArrived 5 acknowledged ⟨server, firstAck⟩ ∧ HasXid firstAck afterRequest.2.2.xid :=
  ⟨⟨by decide +kernel, nofun⟩, by decide +kernel⟩

/-- Two OFFERs in the queue of a client that has sent a DISCOVER; the second server offers 10.10.10.11. -/
def otherOffer : Bytes :=
  [2, 1, 6, 0, 0, 0, 0, 7] ++ List.replicate 8 0 ++ [10, 10, 10, 11] ++ List.replicate 216 0 ++ [99, 130, 83, 99] ++
    [53, 1, 2, 54, 4, 10, 0, 0, 2, 255]
def twoOffers : World := queueWorld [0, 0, 0, 0] [⟨server, sampleOffer⟩, ⟨⟨⟨10, 0, 0, 2⟩, 67⟩, otherOffer⟩]

set_option maxRecDepth 8000 in
/-- This client gets no lease before its timeout whatever the servers send. -/
example (calls : List (List EnvStep × UInt32 × List (List EnvStep))) (h : ∀ x ∈ calls, x.2.1 - 92 ≤ selectingClient.timeout) :
    (laterCalls false 3 3 calls (process false 3 3 worldBus 92 (twoOffers, selectingClient)).2).2.state = .requesting := by
  obtain ⟨-, h2, -, -, h3⟩ := C101_second_offer_starves 3 1 3 92 twoOffers selectingClient 0 ⟨server, sampleOffer⟩ ⟨⟨⟨10, 0, 0, 2⟩, 67⟩, otherOffer⟩ []
    [10, 10, 10, 10] (some [10, 0, 0, 1]) rfl ⟨by decide +kernel, by decide +kernel, by decide +kernel, by decide +kernel, by decide +kernel, by decide +kernel⟩
    ⟨by decide +kernel, by decide +kernel, by decide +kernel, by decide +kernel⟩ (by decide +kernel)
    ⟨by decide +kernel, by decide +kernel, by decide +kernel, by decide +kernel, by decide +kernel, by decide +kernel⟩ (by decide +kernel) (by decide +kernel)
    (by decide +kernel) (by decide +kernel)
    ⟨by decide, by decide, [[104]], by decide, by decide, by unfold ValidLabel isAlnum; decide⟩ (by decide +kernel)
  rw [h3 calls h]
  exact h2

end Verif.Thm

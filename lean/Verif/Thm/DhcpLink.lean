import Verif.Thm.DhcpTimes
/-!
# C72: the DHCP client waits for the link
-/
namespace Verif.Thm
open Verif Hl Spec Dhcp

/-- The link status in the PHY configuration register (datasheet: bit 0 of PHYCFGR, address 0x002E; 1 is up). -/
def linkUp (c : Chip) : Bool := (c.mem 0 0x2E).toNat % 2 = 1

theorem lnk_bit (x : UInt8) : ((⟨x⟩ : PhyCfg).lnk ≠ .up) ↔ ¬ x.toNat % 2 = 1 :=
  forall_u8 (p := fun x => ((⟨x⟩ : PhyCfg).lnk ≠ .up) ↔ ¬ x.toNat % 2 = 1) (by decide +kernel) x

theorem run_phycfgr (w : World) : worldBus.phycfgr w = (.ok ⟨w.tick.chip.mem 0 0x2E⟩, w.tick) := rfl

theorem clearIr_mem0 (sn : Sn) (w : World) : ∃ w1, clearIr worldBus sn w = (.ok (), w1) ∧ Calm sn.idx w w1 ∧ ∀ a, w1.chip.mem 0 a = w.chip.mem 0 a := by
  unfold clearIr
  have hir : ∃ ir, worldBus.snIr sn w = (.ok ir, w.tick) := ⟨_, rfl⟩
  obtain ⟨ir, hir⟩ := hir
  rw [M.bind_ok hir]
  by_cases h : ir.anyRaised = true
  · refine ⟨_, by rw [if_pos h]; exact run_setSnIr sn ir.raw w.tick, ?_, ?_⟩
    · obtain ⟨w1, h1, h2⟩ := calm_setSnIr sn ir.raw w.tick
      have := (run_setSnIr sn ir.raw w.tick).symm.trans h1
      injection this with _ h3
      rw [h3]
      exact (calm_tick _ w).trans h2
    · intro a
      have : ∀ x : UInt8, (w.tick.tick.chip.mem.store (4 * sn.idx + 1) 2 x) 0 a = w.tick.tick.chip.mem 0 a := by
        intro x; unfold Mem.store; simp
      exact (this (w.tick.tick.chip.mem (4 * sn.idx + 1) 2 &&& ~~~ir.raw)).trans (by rw [tick_mem0, tick_mem0])
  · exact ⟨w.tick, by rw [if_neg h]; rfl, calm_tick _ w, fun a => tick_mem0 w a⟩

theorem linkDown_run (c : Client) (w : World) (h : c.state = .init) :
    linkDown worldBus c w = (.ok (!linkUp w.chip), w.tick) := by
  unfold linkDown
  rw [if_pos h, M.bind_ok (run_phycfgr w)]
  have : decide ((⟨w.tick.chip.mem 0 0x2E⟩ : PhyCfg).lnk ≠ .up) = !linkUp w.chip := by
    unfold linkUp
    rw [← tick_mem0 w, ← decide_not]
    exact decide_eq_decide.mpr (lnk_bit _)
  exact congrArg (fun b => (Except.ok b, w.tick)) this

/-- C72: as long as the client has not started and the link is down, `process` asks to be called in a second, sends nothing, consumes
nothing and does not change the client. -/
theorem C72_link_down (dbg : Bool) (fuel n : Nat) (secs : UInt32) (w : World) (c : Client) (hi : c.state = .init) (hl : linkUp w.chip = false) :
    let r := process dbg fuel n worldBus secs (w, c)
    r.1 = .ok 1 ∧ r.2.2 = c ∧ r.2.1.chip.sent = w.chip.sent ∧
      (∀ p, RxState w.chip c.sn.toU8.toNat p → RxState r.2.1.chip c.sn.toU8.toNat p) := by
  obtain ⟨w1, h1, h2, h3⟩ := clearIr_mem0 c.sn w
  have hl1 : linkUp w1.chip = false := by unfold linkUp at hl ⊢; rw [h3]; exact hl
  have hp : process dbg fuel n worldBus secs (w, c) = (.ok 1, (w1.tick, c)) := by
    unfold process
    rw [M.bind_ok (show getC (w, c) = (.ok c, (w, c)) from rfl), bind_onBus, h1]
    dsimp only
    rw [bind_onBus, linkDown_run c w1 hi, hl1]
    rfl
  intro r
  change process dbg fuel n worldBus secs (w, c) = _ at hp
  have hr : r = (.ok 1, (w1.tick, c)) := hp
  have hcalm := h2.trans (calm_tick c.sn.idx w1)
  rw [hr]
  refine ⟨rfl, rfl, hcalm.sent, fun p hx => ?_⟩
  change RxState w.chip c.sn.idx p at hx
  obtain ⟨base, hb⟩ := hx.at
  exact (hcalm.rx _ _ hb).state

theorem timers_init (dbg : Bool) (fuel : Nat) (secs : UInt32) (w : World) (c : Client) (hi : c.state = .init) (ht : c.stateTimeout = none) :
    timers dbg fuel worldBus secs (w, c) = discover dbg fuel worldBus secs (w, c) := by
  unfold timers Client.timeoutElapsed
  rw [M.bind_ok (show getC (w, c) = (.ok c, (w, c)) from rfl), ht]
  dsimp only
  rw [M.bind_ok (show (M.ofExcept (.ok none) : M (World × Client) (Option UInt32)) (w, c) = (.ok none, (w, c)) from rfl)]
  dsimp only
  rw [hi]

theorem discover_sent (dbg : Bool) (fuel : Nat) (secs : UInt32) (w : World) (c : Client) (hv : ValidHostname c.hostname) (hs : Sizes w.chip c.sn.idx) :
    let r := discover dbg fuel worldBus secs (w, c)
    (∃ e, r.1 = .error e) ∨
    (r.1 = .ok () ∧ r.2.2.state = .selecting ∧ ∃ payload, r.2.1.chip.sent = w.chip.sent ++
      [⟨c.sn.idx, c.broadcastAddr.ip.octets, c.broadcastAddr.port.toNat, payload⟩] ∧
      decode payload = some (discoverMessage c.mac c.hostname r.2.2.xid)) := by
  have hrun := discover_run (b := worldBus) dbg fuel secs w c
  obtain ⟨x, rnd, hx⟩ := restarted_eq c
  rw [hx] at hrun
  intro r
  have hr : r = _ := hrun
  clear_value r
  rw [bind_onBus] at hr
  have hset : ∃ w1, worldBus.setSipr Ipv4.unspecified w = (.ok (), w1) ∧ Calm c.sn.idx w w1 :=
    ⟨_, rfl, (calm_tick _ w).trans (calm_common c.sn.idx 15 0 0 0 0 w.tick (by omega))⟩
  obtain ⟨w1, h1, hc1⟩ := hset
  dsimp only at hr
  rw [h1] at hr
  dsimp only at hr
  rw [bind_onBus] at hr
  rcases hb : udpBind dbg fuel worldBus c.sn c.srcPort w1 with ⟨e | _, w2⟩
  · rw [hb] at hr
    exact .inl ⟨e, by rw [hr]⟩
  · rw [hb] at hr
    dsimp only at hr
    have hs1 : Sizes w1.chip c.sn.idx := by
      refine ⟨?_, ?_, ?_, ?_⟩ <;> first | rw [hc1.rxs] | rw [hc1.txs]
      · exact hs.1
      · exact hs.2
      · exact hs.3
      · exact hs.4
    have hst := (C12_open_establishes dbg fuel c.sn (.bind c.srcPort) w1 w2 hs1.1 hs1.2 hs1.3 hs1.4 hb).2
    have hsent : w2.chip.sent = w.chip.sent := by
      have := keepsSent_udpBind dbg fuel c.sn c.srcPort w1
      rw [hb] at this
      exact this.trans hc1.sent
    rw [bind_onBus] at hr
    rcases C32_send_discover dbg c.sn c.mac c.hostname x c.broadcastAddr w2 hv hst with ⟨w3, payload, g1, g2, g3⟩ | ⟨e, w3, g1, -⟩
    · rw [g1] at hr
      right
      rw [hr]
      refine ⟨rfl, rfl, payload, ?_, g3⟩
      exact g2.trans (by rw [hsent])
    · rw [g1] at hr
      exact .inl ⟨e, by rw [hr]⟩

/-- C72: with the link up, and no packet in the queue (or arriving during the call) that has the transaction id of the client, a client that
has not started sends exactly one message, DISCOVER, to the broadcast address, or returns an error. -/
theorem C72_link_up (dbg : Bool) (fuel n : Nat) (secs : UInt32) (w : World) (c : Client) (p : Nat) (hi : c.state = .init) (ht : c.stateTimeout = none)
    (hl : linkUp w.chip = true) (hv : ValidHostname c.hostname) (hs : Sizes w.chip c.sn.toU8.toNat) (h : RxState w.chip c.sn.toU8.toNat p)
    (hp : Pending (fun g => ¬ HasXid g.payload c.xid) c.sn.toU8.toNat p w) (hn : 0 < n) :
    let r := process dbg fuel n worldBus secs (w, c)
    (∃ e, r.1 = .error e) ∨
    (r.2.2.state = .selecting ∧ ∃ payload, r.2.1.chip.sent = w.chip.sent ++
      [⟨c.sn.toU8.toNat, c.broadcastAddr.ip.octets, c.broadcastAddr.port.toNat, payload⟩] ∧
      decode payload = some (discoverMessage c.mac c.hostname r.2.2.xid)) := by
  change RxState w.chip c.sn.idx p at h
  obtain ⟨base, hb⟩ := h.at
  obtain ⟨w1, h1, h2, h3⟩ := clearIr_mem0 c.sn w
  have hl1 : linkUp w1.chip = true := by unfold linkUp at hl ⊢; rw [h3]; exact hl
  have hcalm := h2.trans (calm_tick c.sn.idx w1)
  obtain ⟨n, rfl⟩ : ∃ m, n = m + 1 := ⟨n - 1, by omega⟩
  have hpr : process dbg fuel (n + 1) worldBus secs (w, c) = (packets dbg fuel worldBus secs (n + 1) >>= fun r => match r with
      | some v => pure v
      | none => timers dbg fuel worldBus secs >>= fun _ => getC >>= fun c => M.ofExcept (c.nextCall dbg secs)) (w1.tick, c) := by
    unfold process
    rw [M.bind_ok (show getC (w, c) = (.ok c, (w, c)) from rfl), bind_onBus, h1]
    dsimp only
    rw [bind_onBus, linkDown_run c w1 hi, hl1]
    rfl
  intro r
  have hr : r = _ := hpr
  clear_value r
  obtain ⟨w2, hlat, h4 | ⟨e, h4⟩⟩ := recv_foreign dbg c.sn c.xid base p w1.tick (hcalm.rx _ _ hb) (hcalm.pending _ _ hp)
  · have hpk : packets dbg fuel worldBus secs (n + 1) (w1.tick, c) = (.ok none, (w2, c)) := by
      unfold packets
      rw [M.bind_ok (show getC (w1.tick, c) = (.ok c, (w1.tick, c)) from rfl), bind_onBus, h4]
      rfl
    rw [M.bind_ok hpk] at hr
    dsimp only at hr
    rw [M.bind_run, timers_init dbg fuel secs w2 c hi ht] at hr
    have hc2 := hcalm.trans (hlat.calm c.sn.idx)
    have hs2 : Sizes w2.chip c.sn.idx := by
      refine ⟨?_, ?_, ?_, ?_⟩ <;> first | rw [hc2.rxs] | rw [hc2.txs]
      · exact hs.1
      · exact hs.2
      · exact hs.3
      · exact hs.4
    rcases discover_sent dbg fuel secs w2 c hv hs2 with ⟨e, he⟩ | ⟨g1, g2, payload, g3, g4⟩
    · rcases hd : discover dbg fuel worldBus secs (w2, c) with ⟨x, s⟩
      rw [hd] at he hr
      change x = _ at he
      subst he
      exact .inl ⟨e, by rw [hr]⟩
    · rcases hd : discover dbg fuel worldBus secs (w2, c) with ⟨x, s⟩
      rw [hd] at g1 g2 g3 g4 hr
      change x = _ at g1
      subst g1
      dsimp only at hr
      rw [M.bind_ok (show getC s = (.ok s.2, s) from rfl)] at hr
      rcases hx : s.2.nextCall dbg secs with e | v
      · rw [hx] at hr
        exact .inl ⟨e, by rw [hr]; rfl⟩
      · rw [hx] at hr
        right
        rw [hr]
        refine ⟨g2, payload, ?_, g4⟩
        exact g3.trans (by rw [hc2.sent])
  · have hpk : packets dbg fuel worldBus secs (n + 1) (w1.tick, c) = (.error e, (w2, c)) := by
      unfold packets
      rw [M.bind_ok (show getC (w1.tick, c) = (.ok c, (w1.tick, c)) from rfl), bind_onBus, h4]
    rw [M.bind_error hpk] at hr
    exact .inl ⟨e, by rw [hr]⟩

/-! ## The hypotheses are met -/

/-- `queueWorld` with the link up. -/
def linkedWorld (gs : List Datagram) : World :=
  { queueWorld [0, 0, 0, 0] gs with chip :=
      { (queueWorld [0, 0, 0, 0] gs).chip with mem := fun b a => if b = 0 ∧ a = 0x2E then 1 else (queueWorld [0, 0, 0, 0] gs).chip.mem b a } }

example : linkUp (queueWorld [0, 0, 0, 0] [foreignPacket]).chip = false ∧ (Client.new .sn5 1 ⟨2, 0, 17, 34, 51, 68⟩ [104]).state = .init ∧
    (Client.new .sn5 1 ⟨2, 0, 17, 34, 51, 68⟩ [104]).stateTimeout = none := by decide +kernel
example : linkUp (linkedWorld [foreignPacket]).chip = true := by decide +kernel
example : RxState (linkedWorld [foreignPacket]).chip 5 0 ∧ Sizes (linkedWorld [foreignPacket]).chip 5 :=
  ⟨⟨by decide +kernel, by decide +kernel, by decide +kernel, by decide +kernel, by decide +kernel, by decide +kernel⟩,
    ⟨by decide +kernel, by decide +kernel, by decide +kernel, by decide +kernel⟩⟩
set_option maxRecDepth 8000 in
/-- DISCOVER is sent. -/
example : ((process false 9 3 worldBus 100 (linkedWorld [], Client.new .sn5 1 ⟨2, 0, 17, 34, 51, 68⟩ [104])).2.1.chip.sent.map fun s => (s.sock, s.ip, s.port)) =
    [(5, [255, 255, 255, 255], 67)] := by decide +kernel

end Verif.Thm

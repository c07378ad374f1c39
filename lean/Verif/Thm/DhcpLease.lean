import Verif.Proof.DhcpTimers
/-!
# C35, C36, C38: leases, foreign packets and the time of the next call
-/
namespace Verif.Thm
open Verif Hl Spec Dhcp

/-! ## C35 -/

/-- C35: an address is reported exactly in the states `Bound`, `Renewing` and `Rebinding`, in which `has_lease` is true. -/
theorem C35_leased_ip (c : Client) :
    (c.state ∈ [.bound, .renewing, .rebinding] ↔ c.hasLease = true) ∧
    (c.hasLease = true → c.leasedIp = some c.ip) ∧ (c.hasLease = false → c.leasedIp = none) := by
  refine ⟨?_, fun h => ?_, fun h => ?_⟩
  · unfold Client.hasLease
    cases c.state <;> simp
  · unfold Client.leasedIp; rw [if_pos h]
  · unfold Client.leasedIp; rw [h]; rfl

/-- C35: in every history of calls of `process` at any times, changes of the timeout and calls on any sockets, whatever
arrives and whether the calls succeed or not: the address register of the device holds the leased address, or 0.0.0.0
if there is no lease. -/
theorem C35_address_register (dbg : Bool) (fuel n : Nat) (steps : List DhcpStep) (s : World × Client)
    (h : s.1.chip.ownIp = match s.2.leasedIp with
      | some ip => ip.octets
      | none => [0, 0, 0, 0]) :
    (runDhcp dbg fuel n steps s).1.chip.ownIp = match (runDhcp dbg fuel n steps s).2.leasedIp with
      | some ip => ip.octets
      | none => [0, 0, 0, 0] := by
  induction steps generalizing s with
  | nil => exact h
  | cons st rest ih =>
    cases st with
    | process secs => exact ih _ (leads_process dbg fuel n secs s h)
    | setTimeout secs => exact ih _ h
    | other sn c =>
      refine ih _ ?_
      have := closed_call (closedIp sn) dbg fuel c s.1
      show (c.exec dbg fuel worldBus sn s.1).2.chip.ownIp = _
      rw [this]; exact h

/-- C35: `setup_socket` of a new client clears the address register, whatever it held, so the histories of
`C35_address_register` can start there. -/
theorem C35_setup (dbg : Bool) (fuel : Nat) (sn : Sn) (seed : UInt64) (mac : Eui48) (hostname : Bytes) (w : World) :
    (setupSocket dbg fuel worldBus (Client.new sn seed mac hostname) w).2.chip.ownIp = [0, 0, 0, 0] ∧
    (Client.new sn seed mac hostname).leasedIp = none := by
  refine ⟨?_, rfl⟩
  have succ : ∀ {α β : Type} {m : M World α} {f : α → M World β} (_ : ∀ w, ∃ a w', m w = (.ok a, w'))
      (_ : ∀ a w, (f a w).2.chip.ownIp = [0, 0, 0, 0]) (w : World), ((m >>= f) w).2.chip.ownIp = [0, 0, 0, 0] := by
    intro α β m f h1 h2 w
    obtain ⟨a, w', h⟩ := h1 w
    rw [M.bind_ok h]; exact h2 a w'
  unfold setupSocket
  generalize hc : Client.new sn seed mac hostname = c
  have hip : c.ip = .unspecified := by rw [← hc]; rfl
  refine succ (fun w => ⟨_, _, rfl⟩) (fun simr => ?_) w
  refine succ (fun w => ⟨_, _, rfl⟩) (fun _ => ?_)
  refine succ (fun w => ⟨_, _, rfl⟩) (fun _ => ?_)
  refine succ (fun w => ⟨_, _, rfl⟩) (fun _ w => ?_)
  obtain ⟨w1, h1, h2⟩ := run_setSipr c.ip w
  rw [M.bind_ok h1]
  have := closed_udpBind (closedIp c.sn) dbg fuel c.srcPort w1
  refine Eq.trans this ?_
  rw [h2, hip]; rfl

/-- C35: going back to DISCOVER (after a NAK, a timeout or when the lease ends) clears the address in the client and in
the device, at once and whether it succeeds or not; if it succeeds no address is reported any more.  Missing: if it fails,
`leased_ip` still reports an address (see `C35_failed_discover_keeps_lease`). -/
theorem C35_discover_partial (dbg : Bool) (fuel : Nat) (secs : UInt32) (w : World) (c : Client) :
    let r := discover dbg fuel worldBus secs (w, c)
    r.2.1.chip.ownIp = [0, 0, 0, 0] ∧ r.2.2.ip = .unspecified ∧ (r.1 = .ok () → r.2.2.leasedIp = none ∧ r.2.2.state = .selecting) := by
  intro r
  have h := leads_discover_noIp dbg fuel secs (w, c) trivial
  refine ⟨h.1, h.2, fun hr => ?_⟩
  rcases discover_client (b := worldBus) dbg fuel secs w c with hd | ⟨⟨e, he⟩, -⟩
  · rw [show r.2.2 = _ from hd.2]
    generalize restarted c = c1
    exact ⟨rfl, rfl⟩
  · have : r.1 = .error e := he
    rw [this] at hr; cases hr

/-- A device on which binding the socket fails (no space in its transmit buffers), so that DISCOVER cannot be sent. -/
def noTxWorld : World := ⟨⟨fun b a => if b = 21 ∧ a = 0x1E then 2 else if b = 0 ∧ 0x0F ≤ a ∧ a < 0x13 then 10 else 0, [], fun _ => []⟩, []⟩

/-- A bound client whose lease has ended at time 100. -/
def expiredClient : Client :=
  { Client.new .sn5 1 ⟨2, 0, 17, 34, 51, 68⟩ [104] with state := .bound, ip := ⟨10, 10, 10, 10⟩, t1 := 5, t2 := 8, lease := 10, leaseSecs := 50 }

set_option maxRecDepth 8000 in
/-- C35 fails in this: if DISCOVER cannot be sent when the lease has ended, `process` returns an error and the client
still reports a lease, of the address 0.0.0.0. -/
theorem C35_failed_discover_keeps_lease :
    noTxWorld.chip.ownIp = expiredClient.ip.octets ∧
    (process false 3 3 worldBus 100 (noTxWorld, expiredClient)).1 = .error .outOfMemory ∧
    (process false 3 3 worldBus 100 (noTxWorld, expiredClient)).2.2.leasedIp = some ⟨0, 0, 0, 0⟩ := by
  refine ⟨by decide +kernel, by decide +kernel, by decide +kernel⟩

/-! ## C36 -/

/-- C36: if every packet in the queue and every packet that arrives during the call has another transaction id than the
client's (or is too short to have one), then `process` does to the client only what the timers ask for: nothing if none
is due; otherwise it may clear the address, change the state and choose a new transaction id.  The times of the lease
and the servers never change, and no address is ever taken from such a packet. -/
theorem C36_foreign_xid (dbg : Bool) (fuel n : Nat) (secs : UInt32) (w : World) (c : Client) (p : Nat)
    (h : RxState w.chip c.sn.toU8.toNat p) (hp : Pending (fun g => ¬ HasXid g.payload c.xid) c.sn.toU8.toNat p w) :
    let c' := (process dbg fuel n worldBus secs (w, c)).2.2
    (dueTimer c secs = none → c' = c) ∧
    (c'.ip = c.ip ∨ c'.ip = .unspecified) ∧ c'.t1 = c.t1 ∧ c'.t2 = c.t2 ∧ c'.lease = c.lease ∧ c'.leaseSecs = c.leaseSecs ∧
    c'.serverId = c.serverId ∧ c'.dns = c.dns ∧ c'.ntp = c.ntp ∧ (c'.hasLease = true → c.hasLease = true) := by
  intro c'
  change RxState w.chip c.sn.idx p at h
  change Pending _ c.sn.idx p w at hp
  have same : (dueTimer c secs = none → c = c) ∧ (c.ip = c.ip ∨ c.ip = .unspecified) ∧ c.t1 = c.t1 ∧ c.t2 = c.t2 ∧
      c.lease = c.lease ∧ c.leaseSecs = c.leaseSecs ∧ c.serverId = c.serverId ∧ c.dns = c.dns ∧ c.ntp = c.ntp ∧
      (c.hasLease = true → c.hasLease = true) := by simp
  suffices hs : c' = c ∨ ∃ w', c' = (timers dbg fuel worldBus secs (w', c)).2.2 by
    rcases hs with hs | ⟨w', hs⟩
    · rw [hs]; exact same
    · rw [hs]
      rcases timers_due (b := worldBus) dbg fuel secs w' c with ht | ⟨-, ht, -⟩
      · rw [ht]
        have hm := timerAction_client (b := worldBus) dbg fuel secs (dueTimer c secs) w' c
        generalize (timerAction dbg fuel worldBus secs (dueTimer c secs) (w', c)).2.2 = c2 at hm
        rcases hd : dueTimer c secs with _ | t <;> rw [hd] at hm
        · rw [List.mem_singleton.mp hm]; rw [hd] at same; exact same
        · have hl := fun h => dueTimer_lease (t := t) hd h
          refine ⟨nofun, ?_⟩
          have two : ∀ {a b : Client} {P : Client → Prop}, c2 ∈ [a, b] → P a → P b → P c2 := by
            intro a b P h h1 h2
            rcases List.mem_cons.mp h with h | h
            · rw [h]; exact h1
            · rw [List.mem_singleton.mp h]; exact h2
          cases t with
          | restart =>
            unfold timerClients at hm
            obtain ⟨x, r, hx⟩ := restarted_eq c
            rw [hx] at hm
            refine two (P := fun c2 => (c2.ip = c.ip ∨ c2.ip = .unspecified) ∧ c2.t1 = c.t1 ∧ c2.t2 = c.t2 ∧ c2.lease = c.lease ∧
              c2.leaseSecs = c.leaseSecs ∧ c2.serverId = c.serverId ∧ c2.dns = c.dns ∧ c2.ntp = c.ntp ∧
              (c2.hasLease = true → c.hasLease = true)) hm ?_ ?_
            · exact ⟨.inr rfl, rfl, rfl, rfl, rfl, rfl, rfl, rfl, fun h => h⟩
            · exact ⟨.inr rfl, rfl, rfl, rfl, rfl, rfl, rfl, rfl, nofun⟩
          | renew | rebind =>
            have hl := hl nofun
            unfold timerClients at hm
            obtain ⟨x, r, hx⟩ := rexid_eq c
            rw [hx] at hm
            refine two (P := fun c2 => (c2.ip = c.ip ∨ c2.ip = .unspecified) ∧ c2.t1 = c.t1 ∧ c2.t2 = c.t2 ∧ c2.lease = c.lease ∧
              c2.leaseSecs = c.leaseSecs ∧ c2.serverId = c.serverId ∧ c2.dns = c.dns ∧ c2.ntp = c.ntp ∧
              (c2.hasLease = true → c.hasLease = true)) hm ?_ ?_
            · exact ⟨.inl rfl, rfl, rfl, rfl, rfl, rfl, rfl, rfl, fun _ => hl⟩
            · exact ⟨.inl rfl, rfl, rfl, rfl, rfl, rfl, rfl, rfl, fun _ => hl⟩
      · rw [ht]; exact same
  obtain ⟨base, hb⟩ := h.at
  rcases process_foreign dbg fuel n secs w c base p hb hp with h1 | ⟨w', h1⟩
  · exact .inl h1
  · exact .inr ⟨w', h1⟩

/-- A packet of another client: the transaction id is 3. -/
def foreignPacket : Datagram := ⟨⟨⟨10, 0, 0, 1⟩, 67⟩, [2, 1, 6, 0, 0, 0, 0, 3, 0, 0]⟩

/-- A device with the datagrams `gs` in the queue of socket 5, which is an open UDP socket with buffers of 2 KiB. -/
def queueWorld (ip : Bytes) (gs : List Datagram) : World :=
  { chip :=
      { mem := fun b a =>
          if b = 21 then
            (if a = 0x1E ∨ a = 0x1F then 2 else if a = 0 then 2 else if a = 3 then 0x22 else if a = 0x20 then 8
             else if a = 0x26 ∨ a = 0x2A then UInt8.ofNat ((frames gs).length / 256)
             else if a = 0x27 ∨ a = 0x2B then UInt8.ofNat (frames gs).length else 0)
          else if b = 23 then (frames gs).getD a 0
          else if b = 0 ∧ 0x0F ≤ a ∧ a < 0x13 then ip.getD (a - 0x0F) 0
          else 0
        sent := [], received := fun k => if k = 5 then frames gs else [] }
    sched := [] }

theorem queueWorld_foreign : RxState (queueWorld [0, 0, 0, 0] [foreignPacket]).chip 5 0 ∧
    Pending (fun g => ¬ HasXid g.payload 7) 5 0 (queueWorld [0, 0, 0, 0] [foreignPacket]) := by
  refine ⟨⟨by decide +kernel, by decide +kernel, by decide +kernel, by decide +kernel, by decide +kernel, by decide +kernel⟩,
    ⟨by decide +kernel, ⟨[foreignPacket], by unfold Fit; decide +kernel, by decide +kernel, by decide +kernel⟩, nofun⟩⟩

/-- The hypotheses of `C35_address_register` and `C36_foreign_xid` are met. -/
example : (queueWorld [10, 10, 10, 10] [foreignPacket]).chip.ownIp = match expiredClient.leasedIp with
      | some ip => ip.octets
      | none => [0, 0, 0, 0] := by decide +kernel

end Verif.Thm

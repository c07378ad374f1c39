import Verif.Thm.DhcpExchange
import Verif.Thm.DhcpLease
import Verif.Proof.MqttRun
import Verif.Spec.DhcpRenew
/-!
# C106: keeping a lease
-/
namespace Verif.Thm
open Verif Hl Spec Dhcp

/-- A REQUEST is sent. -/
theorem request_sent {w : World} {c : Client} (hv : ValidHostname c.hostname) (ht : TxState w.chip c.sn.idx)
    (hroom : 275 + c.hostname.length ≤ w.chip.txFsr c.sn.idx) :
    ∃ w' payload x rnd, request worldBus (w, c) = (.ok (), (w', { c with xid := x, rand := rnd })) ∧
      w'.chip.sent = w.chip.sent ++ [⟨c.sn.idx, w.chip.destIp c.sn.idx, w.chip.destPort c.sn.idx, payload⟩] ∧
      decode payload = some (requestMessage c.mac c.ip c.hostname c.serverId x) ∧ TxKept c.sn.idx w w' ∧
      (Still c.sn.idx w → Still c.sn.idx w' ∧ w'.chip.received c.sn.idx = w.chip.received c.sn.idx) := by
  have hreq := request_client (b := worldBus) w c
  obtain ⟨x, rnd, hx⟩ := rexid_eq c
  rw [hx] at hreq
  dsimp only at hreq
  have hl : (dhcpHeader c.mac x ++ requestOptions c.mac c.ip c.hostname c.serverId).length ≤ 275 + c.hostname.length := by
    rw [List.length_append, dhcpHeader_length]
    cases c.serverId <;> simp [requestOptions, Eui48.octets, Ipv4.octets, serverIdOption] <;> omega
  have hto := txOnly_emitSend c.sn (dhcpRequest c.mac c.ip c.hostname c.serverId x) w
  have hes : ∀ r, socketWriter worldBus c.sn w = (.ok r, w.tick) →
      emitSend c.sn (dhcpRequest c.mac c.ip c.hostname c.serverId x) w = Mqtt.sendPacket worldBus r (dhcpRequest c.mac c.ip c.hostname c.serverId x) w.tick := by
    intro r hr
    unfold emitSend
    rw [M.bind_ok hr]
    rfl
  obtain ⟨r, h1, h2⟩ := packet_run ht (emits_request c.mac c.ip c.hostname c.serverId x)
  have he := hes r h1
  rcases h2 with ⟨w', h2, -, -, h3, h4⟩ | ⟨w', -, -, h2, -⟩
  · rw [he, h2] at hto
    rw [show sendDhcpRequest worldBus c.sn c.mac c.ip c.hostname c.serverId x w = _ from he, h2] at hreq
    exact ⟨w', _, x, rnd, hreq, h3, decode_request c.mac _ c.hostname _ x hv, h4, hto.still⟩
  · omega

/-- The client has a lease, is idle, and has nothing to read. -/
structure Leased (c : Client) (base p : Nat) (w : World) : Prop where
  lease : c.hasLease = true
  time : c.stateTimeout = none
  rx : RxAt w.chip c.sn.idx base p
  empty : Empty c.sn.idx p w
  tx : TxState w.chip c.sn.idx
  name : ValidHostname c.hostname

theorem Leased.read {c : Client} {base p : Nat} {w : World} (h : Leased c base p w) : (w.chip.received c.sn.idx).length = p := by
  obtain ⟨h1, ⟨gs, -, h2, h3⟩, -⟩ := h.empty
  cases gs with
  | nil =>
    have := congrArg List.length h2
    simp [frames] at this
    omega
  | cons g gs => exact absurd (h3 g (List.mem_cons_self ..)) id

/-- What a REQUEST of the client looks like to the others. -/
def IsRequest (c : Client) (w : World) (x : UInt32) (s : Sent) : Prop :=
  s.sock = c.sn.idx ∧ s.ip = w.chip.destIp c.sn.idx ∧ s.port = w.chip.destPort c.sn.idx ∧
    decode s.payload = some (requestMessage c.mac c.ip c.hostname c.serverId x)

/-- The timers of a lease that is not over. -/
theorem timers_leased (fuel : Nat) (secs : UInt32) (w : World) (c : Client) (base p : Nat) (h : Leased c base p w)
    (hq : Still c.sn.idx w ∨ dueTimer c secs = none) (hl : secs - c.leaseSecs ≤ c.lease) (hroom : 275 + c.hostname.length ≤ w.chip.txFsr c.sn.idx) :
    ∃ w' c', (timers false fuel worldBus secs >>= fun _ => getC >>= fun c => M.ofExcept (c.nextCall false secs)) (w, c) =
        (.ok (c'.nextLeaseCall secs), (w', c')) ∧ Leased c' base p w' ∧
      w'.chip.destIp c.sn.idx = w.chip.destIp c.sn.idx ∧ w'.chip.destPort c.sn.idx = w.chip.destPort c.sn.idx ∧
      ((dueTimer c secs = none ∧ c' = c ∧ w' = w) ∨
       ∃ s x rnd st, IsRequest c w x s ∧ w'.chip.sent = w.chip.sent ++ [s] ∧ c' = { c with xid := x, rand := rnd, state := st } ∧
        ((dueTimer c secs = some .renew ∧ st = .renewing) ∨ (dueTimer c secs = some .rebind ∧ st = .rebinding))) := by
  have hnl : ¬ c.lease < secs - c.leaseSecs := UInt32.not_lt.mpr hl
  have hdue : dueTimer c secs = none ∨ dueTimer c secs = some .renew ∨ dueTimer c secs = some .rebind := by
    have hl' := h.lease
    unfold Client.hasLease at hl'
    unfold dueTimer
    rw [h.time]
    dsimp only
    cases hc : c.state <;> rw [hc] at hl' <;> first
      | exact absurd hl' (by decide)
      | (dsimp only; rw [if_neg hnl]; repeat' (first | exact .inl rfl | exact .inr (.inl rfl) | exact .inr (.inr rfl) | split))
  have hnext : ∀ (w' : World) (c' : Client), c'.stateTimeout = none →
      (getC >>= fun c => M.ofExcept (c.nextCall false secs) : M (World × Client) UInt32) (w', c') = (.ok (c'.nextLeaseCall secs), (w', c')) := by
    intro w' c' h'
    rw [M.bind_ok (show getC (w', c') = (.ok c', (w', c')) from rfl)]
    unfold Client.nextCall Client.timeoutElapsed
    rw [h']
    rfl
  have ht := (timers_due (b := worldBus) false fuel secs w c).resolve_right (fun h => by cases h.1)
  rw [M.bind_run, ht]
  obtain ⟨w', payload, x, rnd, r1, r2, r3, r4, r5⟩ := request_sent h.name h.tx hroom
  have hnew : ∀ st, Client.hasLease { c with state := st } = true → dueTimer c secs ≠ none →
      Leased { c with xid := x, rand := rnd, state := st } base p w' := fun st hst' hd =>
    have hst := r5 (hq.resolve_right hd)
    ⟨hst', h.time, r4.rx _ _ h.rx, empty_of (k := c.sn.idx) hst.1 (by rw [hst.2]; exact h.read), r4.idle h.tx, h.name⟩
  have hco : ∀ st, ({ c with xid := x, rand := rnd, state := st, stateTimeout := none } : Client) = { c with xid := x, rand := rnd, state := st } := by
    intro st
    have := h.time
    cases c
    dsimp only at this ⊢
    rw [this]
  rcases hdue with hd | hd | hd
  · rw [hd]
    refine ⟨w, c, hnext w c h.time, h, rfl, rfl, .inl ⟨rfl, rfl, rfl⟩⟩
  · rw [hd]
    have ta : timerAction false fuel worldBus secs (some .renew) (w, c) = (.ok (), (w', { c with xid := x, rand := rnd, state := .renewing, stateTimeout := none })) :=
      M.bind_ok r1
    rw [ta]
    refine ⟨w', _, ?_, hnew .renewing rfl (by rw [hd]; nofun), r4.destIp, r4.destPort, .inr ⟨_, x, rnd, .renewing, ⟨rfl, rfl, rfl, r3⟩, r2, rfl, .inl ⟨rfl, rfl⟩⟩⟩
    rw [← hco]
    exact hnext _ _ rfl
  · rw [hd]
    have ta : timerAction false fuel worldBus secs (some .rebind) (w, c) = (.ok (), (w', { c with xid := x, rand := rnd, state := .rebinding, stateTimeout := none })) :=
      M.bind_ok r1
    rw [ta]
    refine ⟨w', _, ?_, hnew .rebinding rfl (by rw [hd]; nofun), r4.destIp, r4.destPort, .inr ⟨_, x, rnd, .rebinding, ⟨rfl, rfl, rfl, r3⟩, r2, rfl, .inr ⟨rfl, rfl⟩⟩⟩
    rw [← hco]
    exact hnext _ _ rfl

/-- Taking what has arrived. -/
theorem packets_served (fuel n : Nat) (secs : UInt32) (w : World) (c : Client) (base p : Nat) (hl : c.hasLease = true) (ht : c.stateTimeout = none)
    (hb : RxAt w.chip c.sn.idx base p) (htx : TxState w.chip c.sn.idx) (hv : ValidHostname c.hostname) (hp : p ≤ (w.chip.received c.sn.idx).length)
    (x : Option Ack) (hx : Served c.sn.idx w c.xid x) :
    ∃ w' c' p', packets false fuel worldBus secs (n + 2) (w, c) = (.ok none, (w', c')) ∧ Leased c' base p' w' ∧ TxSame c.sn.idx w w' ∧
      ((c' = c ∧ Still c.sn.idx w' ∧ (x = none ∨ c.state = .bound)) ∨
       ∃ a, x = some a ∧ c.state ≠ .bound ∧ c' = acked c secs a ∧ (∀ m, a.mask = some m → w'.chip.subnet = m) ∧
        (∀ g, a.server = some g → w'.chip.gateway = g)) := by
  cases hx with
  | nothing h1 h2 =>
    have hlen : (w.chip.received c.sn.idx).length = p := by
      have h3 := congrArg List.length hb.state.data
      change w.chip.unread c.sn.idx = [] at h1
      rw [h1, List.length_drop] at h3
      simp at h3
      omega
    have hemp := empty_of h2 hlen
    obtain ⟨w1, e1, e2⟩ := packets_empty fuel (n + 1) secs c base p w hb hemp
    have k := e2.calm c.sn.idx
    exact ⟨w1, c, p, e1, ⟨hl, ht, k.rx _ _ hb, k.pending _ _ hemp, k.tx htx, hv⟩, k.toTxSame, .inl ⟨rfl, (later_still e2 h2).1, .inl rfl⟩⟩
  | ack g a h1 h2 h3 h4 h5 h6 h7 =>
    obtain ⟨u, w2, r1, r2, r3⟩ := (recv_match false c.sn c.xid base p w g [] hb (by omega) (by rw [List.append_nil]; exact h1.unread) h4
      (by rw [h2]; decide)).resolve_right (fun h => by cases h.1)
    have k2 := r2.calm c.sn.idx
    have s2 := later_still r2 h1.silent
    have hlen := only_length hb h1.unread
    have hgo : ∀ {w3 : World} {c3 : Client} {w4 : World}, handle false fuel worldBus secs u (w2, c) = (.ok none, (w3, c3)) →
        packets false fuel worldBus secs (n + 1) (w3, c3) = (.ok none, (w4, c3)) →
        packets false fuel worldBus secs (n + 2) (w, c) = (.ok none, (w4, c3)) := by
      intro w3 c3 w4 q1 q2
      rw [packets.eq_2, M.bind_ok (show getC (w, c) = (.ok c, (w, c)) from rfl), bind_onBus, r1]
      dsimp only
      rw [M.bind_ok q1]
      exact q2
    by_cases hbd : c.state = .bound
    · obtain ⟨w3, d1, d2, d3, d4⟩ := r3.done_calm
      have hh : handle false fuel worldBus secs u (w2, c) = (.ok none, (w3, c)) := by
        unfold handle
        rw [M.bind_ok (show getC (w2, c) = (.ok c, (w2, c)) from rfl), hbd]
        dsimp only
        rw [bind_onBus, d1]; rfl
      have s3 := (done_pending u w2 c.sn.idx).2 s2.1
      rw [d1] at s3
      have hemp : Empty c.sn.idx (p + (8 + g.payload.length)) w3 := empty_of s3.1 (by rw [s3.2, s2.2]; exact hlen)
      obtain ⟨w4, e1, e2⟩ := packets_empty fuel n secs c base _ w3 d2 hemp
      have k4 := e2.calm c.sn.idx
      exact ⟨w4, c, _, hgo hh e1, ⟨hl, ht, k4.rx _ _ d2, k4.pending _ _ hemp, k4.tx (d4.tx (k2.tx htx)), hv⟩,
        (k2.toTxSame.trans d4.toTxSame).trans k4.toTxSame, .inl ⟨rfl, (later_still e2 s3.1).1, .inr hbd⟩⟩
    · have hs : c.state = .requesting ∨ c.state = .renewing ∨ c.state = .rebinding := by
        unfold Client.hasLease at hl
        cases hc : c.state <;> rw [hc] at hl hbd <;> first | exact absurd hl (by decide) | exact absurd rfl hbd | simp
      obtain ⟨w3, e1, e2, -, e4, e5, e6, -, e8⟩ := handle_ack false fuel secs r3 h3 h5 hs (.inl h6) (.inl h7)
      have hemp : Empty c.sn.idx (p + (8 + g.payload.length)) w3 := e8 _ _ (empty_of s2.1 (by rw [s2.2]; exact hlen))
      obtain ⟨w4, e9, e10⟩ := packets_empty fuel n secs (acked c secs a) base _ w3 e2 hemp
      have k4 := e10.calm c.sn.idx
      have hmem : ∀ a, w4.chip.mem 0 a = w3.chip.mem 0 a := by
        obtain ⟨j, rfl⟩ := e10
        exact fun a => ticks_mem0 j w3 a
      refine ⟨w4, acked c secs a, _, hgo e1 e9, ⟨rfl, rfl, k4.rx _ _ e2, k4.pending _ _ hemp, k4.tx (e4.tx (k2.tx htx)), hv⟩,
        (k2.toTxSame.trans e4.toTxSame).trans k4.toTxSame, .inr ⟨a, rfl, hbd, rfl, fun m hm => ?_, fun g hg => ?_⟩⟩
      · rw [← e5 m hm]; unfold Chip.subnet; simp only [hmem]
      · rw [← e6 g hg]; unfold Chip.gateway; simp only [hmem]

theorem due_acked (c : Client) (secs : UInt32) (a : Ack) : dueTimer (acked c secs a) secs = none := by
  show (if (acked c secs a).lease < secs - secs then _ else if (acked c secs a).t2 < secs - secs then _ else
    if (acked c secs a).t1 < secs - secs then _ else none) = none
  have h0 : ∀ x : UInt32, ¬ x < secs - secs := by
    intro x; rw [UInt32.sub_self]; exact UInt32.not_lt_zero
  rw [if_neg (h0 _), if_neg (h0 _), if_neg (h0 _)]

theorem next_acked (c : Client) (secs : UInt32) (a : Ack) : (acked c secs a).nextLeaseCall secs = (acked c secs a).t1 := by
  show satSub (acked c secs a).t1 (satSub secs secs) = _
  have : satSub secs secs = 0 := by unfold satSub; rw [if_neg (UInt32.lt_irrefl _), UInt32.sub_self]
  rw [this]
  unfold satSub
  rw [if_neg UInt32.not_lt_zero, UInt32.sub_zero]

/-- One call of a client with a lease. -/
theorem call_leased (fuel n : Nat) (t : UInt32) (w : World) (c : Client) (base p : Nat) (hl : c.hasLease = true) (ht : c.stateTimeout = none)
    (hb : RxAt w.chip c.sn.idx base p) (htx : TxState w.chip c.sn.idx) (hv : ValidHostname c.hostname) (hp : p ≤ (w.chip.received c.sn.idx).length)
    (x : Option Ack) (hx : Served c.sn.idx w c.xid x) (hin : x = none ∨ c.state = .bound → t - c.leaseSecs ≤ c.lease)
    (hroom : 275 + c.hostname.length ≤ w.chip.txFsr c.sn.idx) :
    ∃ w' c' p', process false fuel (n + 2) worldBus t (w, c) = (.ok (c'.nextLeaseCall t), (w', c')) ∧ Leased c' base p' w' ∧
      w'.chip.destIp c.sn.idx = w.chip.destIp c.sn.idx ∧ w'.chip.destPort c.sn.idx = w.chip.destPort c.sn.idx ∧
      (((x = none ∨ c.state = .bound) ∧
        ((dueTimer c t = none ∧ c' = c ∧ w'.chip.sent = w.chip.sent) ∨
         ∃ s x rnd st, IsRequest c w x s ∧ w'.chip.sent = w.chip.sent ++ [s] ∧ c' = { c with xid := x, rand := rnd, state := st } ∧
          ((dueTimer c t = some .renew ∧ st = .renewing) ∨ (dueTimer c t = some .rebind ∧ st = .rebinding)))) ∨
       ∃ a, x = some a ∧ c.state ≠ .bound ∧ c' = acked c t a ∧ w'.chip.sent = w.chip.sent ∧ (∀ m, a.mask = some m → w'.chip.subnet = m) ∧
        (∀ g, a.server = some g → w'.chip.gateway = g)) := by
  obtain ⟨w1, k1, s1, hpr⟩ := process_started fuel (n + 2) t w c (by intro h; unfold Client.hasLease at hl; rw [h] at hl; exact absurd hl (by decide))
  have hx1 : Served c.sn.idx w1 c.xid x := by
    cases hx with
    | nothing h1 h2 =>
      obtain ⟨g1, g2⟩ := s1 h2
      refine .nothing ?_ g1
      rw [(k1.rx _ _ hb).state.data, g2, ← hb.state.data]; exact h1
    | ack g a h1 h2 h3 h4 h5 h6 h7 =>
      obtain ⟨g1, g2⟩ := s1 h1.silent
      refine .ack g a ⟨?_, g1⟩ h2 h3 h4 h5 h6 h7
      rw [(k1.rx _ _ hb).state.data, g2, ← hb.state.data]; exact h1.unread
  obtain ⟨w2, c2, p2, e1, e2, e3, e4⟩ := packets_served fuel n t w1 c base p hl ht (k1.rx _ _ hb) (k1.tx htx) hv
    (Nat.le_trans hp k1.recvd.length_le) x hx1
  rw [M.bind_ok e1] at hpr
  dsimp only at hpr
  have k2 := k1.toTxSame.trans e3
  rcases e4 with ⟨rfl, f1, f2⟩ | ⟨a, f1, f2, rfl, f3, f4⟩
  · obtain ⟨w3, c3, g1, g2, g3, g4, g5⟩ := timers_leased fuel t w2 c2 base p2 e2 (.inl f1) (hin f2) (Nat.le_trans hroom (k2.free htx))
    refine ⟨w3, c3, p2, hpr.trans g1, g2, g3.trans k2.dip, g4.trans k2.dport, .inl ⟨f2, ?_⟩⟩
    rcases g5 with ⟨h1, h2, h3⟩ | ⟨s, x, rnd, st, h1, h2, h3, h4⟩
    · exact .inl ⟨h1, h2, by rw [h3]; exact k2.sent⟩
    · refine .inr ⟨s, x, rnd, st, ⟨h1.1, h1.2.1.trans k2.dip, h1.2.2.1.trans k2.dport, h1.2.2.2⟩, by rw [h2, k2.sent], h3, h4⟩
  · obtain ⟨w3, c3, g1, g2, g3, g4, g5⟩ := timers_leased fuel t w2 (acked c t a) base p2 e2 (.inr (due_acked c t a))
      (by show t - t ≤ _; rw [UInt32.sub_self]; exact UInt32.zero_le) (Nat.le_trans hroom (k2.free htx))
    rcases g5 with ⟨h1, rfl, rfl⟩ | ⟨s, x, rnd, st, h1, h2, h3, h4⟩
    · exact ⟨w3, _, p2, hpr.trans g1, g2, g3.trans k2.dip, g4.trans k2.dport, .inr ⟨a, f1, f2, rfl, k2.sent, f3, f4⟩⟩
    · rw [due_acked] at h4
      rcases h4 with ⟨h4, -⟩ | ⟨h4, -⟩ <;> cases h4

theorem leased_pause {c : Client} {base p : Nat} {w : World} (h : Leased c base p w) (es : List EnvStep) (s : List (List EnvStep)) :
    TxSame c.sn.idx w (w.pause es s) ∧ RxAt (w.pause es s).chip c.sn.idx base p ∧ p ≤ ((w.pause es s).chip.received c.sn.idx).length := by
  obtain ⟨h1, h2, h3⟩ := pause_calm c.sn.idx w es s
  exact ⟨h1, h2 _ _ h.rx, Nat.le_trans (Nat.le_of_eq h.read.symm) h3.length_le⟩

/-- What stays the same of the client. -/
structure SameLease (c c' : Client) : Prop where
  ip : c'.ip = c.ip
  sn : c'.sn = c.sn
  mac : c'.mac = c.mac
  name : c'.hostname = c.hostname
  server : c'.serverId = c.serverId

theorem pause_ownIp (w : World) (es : List EnvStep) (s : List (List EnvStep)) : (w.pause es s).chip.ownIp = w.chip.ownIp :=
  tick_ownIp ({ w with sched := es :: s } : World)

theorem process_ownIp (fuel n : Nat) (t : UInt32) (w : World) (c : Client) (hl : c.hasLease = true) (ho : w.chip.ownIp = c.ip.octets)
    (hl' : (process false fuel n worldBus t (w, c)).2.2.hasLease = true) :
    (process false fuel n worldBus t (w, c)).2.1.chip.ownIp = (process false fuel n worldBus t (w, c)).2.2.ip.octets := by
  have h := leads_process false fuel n t (w, c) (by
    unfold IpInv Client.leasedIp
    rw [if_pos hl]; exact ho)
  unfold IpInv Client.leasedIp at h
  rw [if_pos hl'] at h
  exact h

theorem keeps (fuel n : Nat) (calls : List (List EnvStep × UInt32 × List (List EnvStep))) :
    ∀ (w : World) (c : Client) (base p : Nat), Leased c base p w → w.chip.ownIp = c.ip.octets → ServedInTime fuel (n + 2) calls (w, c) →
    ∃ p', Leased (laterCalls false fuel (n + 2) calls (w, c)).2 base p' (laterCalls false fuel (n + 2) calls (w, c)).1 ∧
      SameLease c (laterCalls false fuel (n + 2) calls (w, c)).2 ∧
      (laterCalls false fuel (n + 2) calls (w, c)).1.chip.ownIp = c.ip.octets ∧
      (∃ ss, (laterCalls false fuel (n + 2) calls (w, c)).1.chip.sent = w.chip.sent ++ ss ∧ ∀ s ∈ ss, ∃ x, IsRequest c w x s) ∧
      ∀ r ∈ laterResults fuel (n + 2) calls (w, c), ∃ v, r = .ok v := by
  induction calls with
  | nil =>
    intro w c base p h ho _
    exact ⟨p, h, ⟨rfl, rfl, rfl, rfl, rfl⟩, ho, ⟨[], by simp [laterCalls], nofun⟩, nofun⟩
  | cons call calls ih =>
    obtain ⟨es, t, sched⟩ := call
    intro w c base p h ho hs
    obtain ⟨⟨x, hx, hin⟩, hroom, hrest⟩ := hs
    obtain ⟨k1, k2, k3⟩ := leased_pause h es sched
    obtain ⟨w', c', p', e1, e2, e3, e4, e5⟩ := call_leased fuel n t (w.pause es sched) c base p h.lease h.time k2 (k1.tx h.tx) h.name k3 x hx hin hroom
    have hown := process_ownIp fuel (n + 2) t (w.pause es sched) c h.lease ((pause_ownIp w es sched).trans ho)
    rw [e1] at hown
    have hsame : SameLease c c' := by
      rcases e5 with ⟨-, ⟨-, rfl, -⟩ | ⟨s, x, rnd, st, -, -, rfl, -⟩⟩ | ⟨a, -, -, rfl, -⟩ <;> exact ⟨rfl, rfl, rfl, rfl, rfl⟩
    have ho' : w'.chip.ownIp = c'.ip.octets := hown e2.lease
    dsimp only at hrest
    rw [e1] at hrest
    obtain ⟨p2, f1, f2, f3, ⟨ss, f4, f5⟩, f6⟩ := ih w' c' base p' e2 ho' hrest
    have hL : laterCalls false fuel (n + 2) ((es, t, sched) :: calls) (w, c) = laterCalls false fuel (n + 2) calls (w', c') := by
      rw [laterCalls, e1]
    have hR : laterResults fuel (n + 2) ((es, t, sched) :: calls) (w, c) = .ok (c'.nextLeaseCall t) :: laterResults fuel (n + 2) calls (w', c') := by
      rw [laterResults, e1]
    have hreq : ∀ s ∈ ss, ∃ x, IsRequest c w x s := by
      intro s hs
      obtain ⟨x, g1, g2, g3, g4⟩ := f5 s hs
      rw [hsame.sn] at g1 g2 g3
      rw [hsame.ip, hsame.mac, hsame.name, hsame.server] at g4
      exact ⟨x, g1, g2.trans (e3.trans k1.dip), g3.trans (e4.trans k1.dport), g4⟩
    rw [hL, hR]
    refine ⟨p2, f1, ⟨f2.ip.trans hsame.ip, f2.sn.trans hsame.sn, f2.mac.trans hsame.mac, f2.name.trans hsame.name, f2.server.trans hsame.server⟩,
      f3.trans (by rw [hsame.ip]), ?_, ?_⟩
    · have hnone : w'.chip.sent = w.chip.sent → ∃ ss, (laterCalls false fuel (n + 2) calls (w', c')).1.chip.sent = w.chip.sent ++ ss ∧ ∀ s ∈ ss, ∃ x, IsRequest c w x s :=
        fun hq => ⟨ss, by rw [f4, hq], hreq⟩
      rcases e5 with ⟨-, ⟨-, -, g3⟩ | ⟨s, x, rnd, st, g1, g2, -, -⟩⟩ | ⟨a, -, -, -, g4, -⟩
      · exact hnone (g3.trans k1.sent)
      · refine ⟨s :: ss, by rw [f4, g2, k1.sent, List.append_assoc]; rfl, fun s' hs' => ?_⟩
        rcases List.mem_cons.mp hs' with rfl | hs'
        · exact ⟨x, g1.1, g1.2.1.trans k1.dip, g1.2.2.1.trans k1.dport, g1.2.2.2⟩
        · exact hreq s' hs'
      · exact hnone (g4.trans k1.sent)
    · intro r hr
      rcases List.mem_cons.mp hr with rfl | hr
      · exact ⟨_, rfl⟩
      · exact f6 r hr

/-- The state of a client with a lease between two calls. -/
theorem leased_of {c : Client} {w : World} {p : Nat} (hl : c.hasLease = true) (ht : c.stateTimeout = none) (hr : RxState w.chip c.sn.toU8.toNat p)
    (hq : w.chip.unread c.sn.toU8.toNat = []) (htx : TxState w.chip c.sn.toU8.toNat) (hv : ValidHostname c.hostname) :
    ∃ base, RxAt w.chip c.sn.idx base p ∧ Leased c base p { w with sched := [] } := by
  obtain ⟨base, hb⟩ := RxState.at hr
  refine ⟨base, hb, hl, ht, hb, empty_of (k := c.sn.idx) (w := { w with sched := [] }) nofun ?_, htx, hv⟩
  have h3 := congrArg List.length hb.state.data
  change w.chip.unread c.sn.idx = [] at hq
  rw [hq, List.length_drop] at h3
  have : p ≤ (w.chip.received c.sn.idx).length := hr.le
  simp at h3
  change 0 = (w.chip.received c.sn.idx).length - p at h3
  show (w.chip.received c.sn.idx).length = p
  omega

/-- C106 (the part that holds).  A client that has leased `ip`, waits for no other answer and has an empty queue, is called again and again at any times.
Before each call nothing has arrived, or one ACK of its last REQUEST; when the client is called with no ACK there, the lease is not over yet.  Then
no call fails, the client keeps its address, and so does the address register of the chip; and all that it sends are REQUESTs for
that address, to where its socket sends.  Missing: other packets in the queue, see `C106_stray_packet`. -/
theorem C106_keeps_partial (fuel n : Nat) (calls : List (List EnvStep × UInt32 × List (List EnvStep))) (w : World) (c : Client) (p : Nat) (ip : Ipv4)
    (hl : c.leasedIp = some ip) (ht : c.stateTimeout = none) (hr : RxState w.chip c.sn.toU8.toNat p)
    (hq : w.chip.unread c.sn.toU8.toNat = []) (htx : TxState w.chip c.sn.toU8.toNat) (hv : ValidHostname c.hostname)
    (ho : w.chip.ownIp = ip.octets) (hs : ServedInTime fuel (n + 2) calls (w, c)) :
    let s := laterCalls false fuel (n + 2) calls (w, c)
    s.2.leasedIp = some ip ∧ s.1.chip.ownIp = ip.octets ∧ (∀ r ∈ laterResults fuel (n + 2) calls (w, c), ∃ v, r = .ok v) ∧
    ∃ ss, s.1.chip.sent = w.chip.sent ++ ss ∧ ∀ m ∈ ss, m.sock = c.sn.toU8.toNat ∧ m.ip = w.chip.destIp c.sn.toU8.toNat ∧
      m.port = w.chip.destPort c.sn.toU8.toNat ∧ ∃ x, decode m.payload = some (requestMessage c.mac ip c.hostname c.serverId x) := by
  have hl' : c.hasLease = true ∧ c.ip = ip := by
    unfold Client.leasedIp at hl
    split at hl
    · rename_i h; exact ⟨h, Option.some.inj hl⟩
    · cases hl
  obtain ⟨hl1, rfl⟩ := hl'
  obtain ⟨base, -, hL⟩ := leased_of hl1 ht hr hq htx hv
  cases calls with
  | nil => exact ⟨hl, ho, nofun, [], by simp [laterCalls], nofun⟩
  | cons x calls =>
    obtain ⟨p', h1, h2, h3, ⟨ss, h4, h5⟩, h6⟩ := keeps fuel n (x :: calls) _ c base p hL ho (show ServedInTime fuel (n + 2) (x :: calls) (w, c) from hs)
    refine ⟨?_, h3, h6, ss, h4, fun m hm => ?_⟩
    · show (laterCalls false fuel (n + 2) (x :: calls) ({ w with sched := [] }, c)).2.leasedIp = _
      unfold Client.leasedIp
      rw [if_pos h1.lease, h2.ip]
    · obtain ⟨x, g1, g2, g3, g4⟩ := h5 m hm
      exact ⟨g1, g2, g3, x, g4⟩

/-- One renewal.  A bound client is called at `t1` when its renewal time is over and its rebinding time is not, with nothing in its queue: it sends one REQUEST for its address and
keeps its address.  If the next call, at `t2`, finds the ACK, the client is bound again: it sends nothing, the times of the lease run
from `t2` on and are those of the ACK (scaled by 7/8), the subnet and gateway registers hold what the ACK says, and it wants to be called again
when the renewal time is over. -/
theorem C106_renewal (fuel n : Nat) (t1 t2 : UInt32) (w : World) (c : Client) (p : Nat) (ip : Ipv4) (es1 es2 : List EnvStep) (s1 s2 : List (List EnvStep))
    (ack : Datagram) (a : Ack) (mask gw : Bytes)
    (hl : c.leasedIp = some ip) (hb : c.state = .bound) (ht : c.stateTimeout = none) (hr : RxState w.chip c.sn.toU8.toNat p)
    (htx : TxState w.chip c.sn.toU8.toNat) (hv : ValidHostname c.hostname) (ho : w.chip.ownIp = ip.octets)
    (hd1 : c.t1 < t1 - c.leaseSecs) (hd2 : t1 - c.leaseSecs ≤ c.t2) (hd3 : t1 - c.leaseSecs ≤ c.lease) :
    let w1 := w.pause es1 s1
    let r1 := process false fuel (n + 2) worldBus t1 (w1, c)
    let w2 := r1.2.1.pause es2 s2
    let r2 := process false fuel (n + 2) worldBus t2 (w2, r1.2.2)
    w1.chip.unread c.sn.toU8.toNat = [] → (∀ es ∈ w1.sched, ∀ bs, EnvStep.arrive c.sn.toU8.toNat bs ∉ es) →
    275 + c.hostname.length ≤ w1.chip.txFsr c.sn.toU8.toNat →
    OnlyArrived c.sn.toU8.toNat w2 ack → IsAck ack.payload a → ack.payload.head? = some 2 → ack.payload.length ≤ 65280 →
    HasXid ack.payload r1.2.2.xid → a.mask = some mask → a.server = some gw → 275 + c.hostname.length ≤ w2.chip.txFsr c.sn.toU8.toNat →
    (∃ v, r1.1 = .ok v) ∧ r1.2.2.leasedIp = some ip ∧ r1.2.2.state = .renewing ∧
    (∃ payload, r1.2.1.chip.sent = w.chip.sent ++ [⟨c.sn.toU8.toNat, w.chip.destIp c.sn.toU8.toNat, w.chip.destPort c.sn.toU8.toNat, payload⟩] ∧
      decode payload = some (requestMessage c.mac ip c.hostname c.serverId r1.2.2.xid)) ∧
    (∃ v, r2.1 = .ok v ∧ v.toNat = derate a.t1Secs) ∧ r2.2.1.chip.sent = r1.2.1.chip.sent ∧
    r2.2.2.state = .bound ∧ r2.2.2.leasedIp = some ip ∧ r2.2.1.chip.ownIp = ip.octets ∧ r2.2.1.chip.subnet = mask ∧ r2.2.1.chip.gateway = gw ∧
    r2.2.2.leaseSecs = t2 ∧ r2.2.2.lease.toNat = derate a.leaseSecs ∧ r2.2.2.t1.toNat = derate a.t1Secs ∧ r2.2.2.t2.toNat = derate a.t2Secs := by
  intro w1 r1 w2 r2 q1 q2 q3 o1 o2 o3 o4 o5 o6 o7 o8
  have hl1 : c.hasLease = true := by unfold Client.hasLease; rw [hb]
  have hip : c.ip = ip := by unfold Client.leasedIp at hl; rw [if_pos hl1] at hl; exact Option.some.inj hl
  subst hip
  obtain ⟨base, hB⟩ := RxState.at hr
  obtain ⟨k1, k2, k3⟩ := pause_calm c.sn.idx w es1 s1
  obtain ⟨w1', c1, p1, e1, e2, e3, e4, e5⟩ := call_leased fuel n t1 w1 c base p hl1 ht (k2 _ _ hB) (k1.tx htx) hv
    (Nat.le_trans hr.le k3.length_le) none (.nothing q1 q2) (fun _ => hd3) q3
  have hown := process_ownIp fuel (n + 2) t1 w1 c hl1 ((pause_ownIp w es1 s1).trans ho)
  have hr1 : r1 = _ := e1
  rw [e1] at hown
  clear_value r1
  subst hr1
  have hdue : dueTimer c t1 = some .renew := by
    unfold dueTimer
    rw [ht, hb]
    dsimp only
    rw [if_neg (UInt32.not_lt.mpr hd3), if_neg (UInt32.not_lt.mpr hd2), if_pos hd1]
  rcases e5 with ⟨-, ⟨h1, -⟩ | ⟨s, x, rnd, st, g1, g2, rfl, ⟨-, rfl⟩ | ⟨h1, -⟩⟩⟩ | ⟨a', h1, -⟩
  · rw [hdue] at h1; cases h1
  · obtain ⟨l1, l2, l3⟩ := leased_pause e2 es2 s2
    obtain ⟨w2', c2, p2, f1, f2, f3, f4, f5⟩ := call_leased fuel n t2 w2 _ base p1 e2.lease e2.time l2 (l1.tx e2.tx) e2.name l3 (some a)
      (.ack ack a o1 o3 o4 o5 o2 (by rw [o6]; rfl) (by rw [o7]; rfl)) (fun h => by rcases h with h | h <;> cases h) o8
    have hown2 := process_ownIp fuel (n + 2) t2 w2 _ e2.lease ((pause_ownIp w1' es2 s2).trans (hown e2.lease))
    have hr2 : r2 = _ := f1
    rw [f1] at hown2
    clear_value r2
    subst hr2
    rcases f5 with ⟨h | h, -⟩ | ⟨a', h1, -, rfl, h3, h4, h5⟩
    · cases h
    · cases h
    · cases h1
      obtain ⟨t1', t2', t3'⟩ := ack_times o2
      obtain ⟨sk, si, sp, pl⟩ := s
      obtain ⟨g11, g12, g13, g14⟩ := g1
      dsimp only at g11 g12 g13 g14
      subst g11 g12 g13
      refine ⟨⟨_, rfl⟩, rfl, rfl, ⟨pl, ?_, g14⟩, ⟨_, rfl, ?_⟩, h3.trans l1.sent, rfl, rfl, hown2 rfl, h4 _ o6, h5 _ o7, rfl, ?_, ?_, ?_⟩
      · show w1'.chip.sent = _
        rw [g2, k1.sent, k1.dip, k1.dport]
      · rw [next_acked, ← t2']; exact derate_toNat _
      · rw [← t1']; exact derate_toNat _
      · rw [← t2']; exact derate_toNat _
      · rw [← t3']; exact derate_toNat _
  · rw [hdue] at h1; cases h1
  · cases h1

/-! ## A packet that the client does not take -/

/-- A request (op 1) at the head of the queue is where the packets end. -/
theorem packets_stray (fuel n : Nat) (secs : UInt32) (c : Client) (base p : Nat) (w : World) (g : Datagram)
    (hb : RxAt w.chip c.sn.idx base p) (hq : udpFrame g.src g.payload <+: w.chip.unread c.sn.idx) (hlen : g.payload.length < 65536)
    (hx : g.payload.head? = some 1) : ∃ w1, packets false fuel worldBus secs (n + 1) (w, c) = (.ok none, (w1, c)) ∧ Later w w1 := by
  unfold packets
  rw [M.bind_ok (show getC (w, c) = (.ok c, (w, c)) from rfl), bind_onBus]
  unfold recv
  obtain ⟨rest, hq⟩ := hq
  obtain ⟨u, w1, h1, h2, h3, -⟩ := (udpReader_UR false c.sn base p w g rest hb hlen hq.symm).resolve_right (fun h => by cases h.1)
  rw [h1]
  dsimp only
  unfold recvCheck
  rw [if_neg h3.not_truncated]
  have hc : ∃ cur, (checkProg c.xid).run cursorOps ⟨g.payload, 0⟩ = (.ok false, cur) := by
    obtain ⟨gs, d⟩ := g
    rcases d with _ | ⟨y, d⟩
    · cases hx
    · simp only [List.head?_cons, Option.some.injEq] at hx
      subst hx
      unfold checkProg isBootreply
      rw [RProg.bind_ok (a := true) (s' := ⟨1 :: d, 0 + 1⟩) (by
        rw [RProg.bind_ok (cur_seekStart (o := 0) (by simp)), RProg.bind_ok (cur_readExact (by simp))]
        rfl)]
      exact ⟨_, rfl⟩
  obtain ⟨cur, hc⟩ := hc
  have := h3.run (checkProg c.xid)
  rw [hc] at this
  obtain ⟨w', u', e1, e2, _⟩ := this
  rw [M.bind_ok e1]
  exact ⟨w', rfl, h2.trans e2⟩

/-- What a call before the end of the lease leaves as it is. -/
structure LeaseSame (c c' : Client) : Prop where
  lease : c'.hasLease = true
  time : c'.stateTimeout = none
  ip : c'.ip = c.ip
  sn : c'.sn = c.sn
  since : c'.leaseSecs = c.leaseSecs
  secs : c'.lease = c.lease

theorem request_stray (w : World) (c : Client) : ∃ r w' x rnd, request worldBus (w, c) = (r, (w', { c with xid := x, rand := rnd })) ∧
    TxOnly c.sn.idx w w' := by
  have hreq := request_client (b := worldBus) w c
  obtain ⟨x, rnd, hx⟩ := rexid_eq c
  rw [hx] at hreq
  dsimp only at hreq
  have hto := txOnly_emitSend c.sn (dhcpRequest c.mac c.ip c.hostname c.serverId x) w
  exact ⟨_, _, x, rnd, hreq, hto⟩

/-- One call before the end of the lease. -/
theorem call_stray (fuel n : Nat) (t : UInt32) (w : World) (c : Client) (base p : Nat) (g : Datagram) (hl : c.hasLease = true) (ht : c.stateTimeout = none)
    (hb : RxAt w.chip c.sn.idx base p) (hq : udpFrame g.src g.payload <+: w.chip.unread c.sn.idx) (hlen : g.payload.length < 65536)
    (hx : g.payload.head? = some 1) :
    (t - c.leaseSecs ≤ c.lease → LeaseSame c (process false fuel (n + 1) worldBus t (w, c)).2.2 ∧
      RxAt (process false fuel (n + 1) worldBus t (w, c)).2.1.chip c.sn.idx base p ∧
      udpFrame g.src g.payload <+: (process false fuel (n + 1) worldBus t (w, c)).2.1.chip.unread c.sn.idx) ∧
    (c.lease < t - c.leaseSecs → NoIp (process false fuel (n + 1) worldBus t (w, c)).2) := by
  obtain ⟨w1, k1, -, hpr⟩ := process_started fuel (n + 1) t w c (by intro h; unfold Client.hasLease at hl; rw [h] at hl; exact absurd hl (by decide))
  have hunread : ∀ {w' : World}, RxAt w'.chip c.sn.idx base p → w.chip.received c.sn.idx <+: w'.chip.received c.sn.idx →
      udpFrame g.src g.payload <+: w'.chip.unread c.sn.idx := by
    intro w' h1 h2
    rw [h1.state.data]
    rw [hb.state.data] at hq
    exact hq.trans (prefix_drop h2 p)
  have hb1 := k1.rx _ _ hb
  obtain ⟨w2, h1, h2⟩ := packets_stray fuel n t c base p w1 g hb1 (hunread hb1 k1.recvd) hlen hx
  have k2 := k1.trans (h2.calm c.sn.idx)
  have hb2 := k2.rx _ _ hb
  have htm := (timers_due (b := worldBus) false fuel t w2 c).resolve_right (fun h => by cases h.1)
  have hrun : (process false fuel (n + 1) worldBus t (w, c)).2 = (timers false fuel worldBus t (w2, c)).2 := by
    rw [hpr, M.bind_ok h1]
    show ((timers false fuel worldBus t >>= fun _ => getC >>= fun c => M.ofExcept (c.nextCall false t)) (w2, c)).2 = _
    rw [M.bind_run]
    rcases timers false fuel worldBus t (w2, c) with ⟨_ | _, w3, c3⟩
    · rfl
    · show ((getC >>= fun c => M.ofExcept (c.nextCall false t) : M (World × Client) UInt32) (w3, c3)).2 = _
      rw [M.bind_ok (show getC (w3, c3) = (.ok c3, (w3, c3)) from rfl)]
      cases c3.nextCall false t <;> rfl
  rw [hrun, htm]
  have hst : c.state = .bound ∨ c.state = .renewing ∨ c.state = .rebinding := by
    unfold Client.hasLease at hl
    cases hc : c.state <;> rw [hc] at hl <;> first | exact absurd hl (by decide) | simp
  constructor
  · intro hin
    have hdue : dueTimer c t = none ∨ dueTimer c t = some .renew ∨ dueTimer c t = some .rebind := by
      unfold dueTimer
      rw [ht]
      dsimp only
      rcases hst with hc | hc | hc <;> rw [hc] <;>
        (dsimp only; rw [if_neg (UInt32.not_lt.mpr hin)]; repeat' (first | exact .inl rfl | exact .inr (.inl rfl) | exact .inr (.inr rfl) | split))
    obtain ⟨r, w3, x, rnd, e1, e2⟩ := request_stray w2 c
    have hgo : ∀ st, Client.hasLease { c with state := st } = true →
        LeaseSame c ((request worldBus >>= fun _ => modC (Client.setState st)) (w2, c)).2.2 ∧
        RxAt ((request worldBus >>= fun _ => modC (Client.setState st)) (w2, c)).2.1.chip c.sn.idx base p ∧
        udpFrame g.src g.payload <+: ((request worldBus >>= fun _ => modC (Client.setState st)) (w2, c)).2.1.chip.unread c.sn.idx := by
      intro st hs
      have hb3 := e2.rx _ _ hb2
      have hp3 := hunread hb3 (k2.recvd.trans e2.pre)
      rcases r with e | _
      · rw [M.bind_error e1]
        exact ⟨⟨hl, ht, rfl, rfl, rfl, rfl⟩, hb3, hp3⟩
      · rw [M.bind_ok e1]
        exact ⟨⟨hs, rfl, rfl, rfl, rfl, rfl⟩, hb3, hp3⟩
    rcases hdue with hd | hd | hd <;> rw [hd]
    · rw [show timerAction false fuel worldBus t none (w2, c) = (.ok (), (w2, c)) from rfl]
      exact ⟨⟨hl, ht, rfl, rfl, rfl, rfl⟩, hb2, hunread hb2 k2.recvd⟩
    · rw [show timerAction false fuel worldBus t (some .renew) = (request worldBus >>= fun _ => modC (Client.setState .renewing)) from rfl]
      exact hgo .renewing rfl
    · rw [show timerAction false fuel worldBus t (some .rebind) = (request worldBus >>= fun _ => modC (Client.setState .rebinding)) from rfl]
      exact hgo .rebinding rfl
  · intro hout
    have hdue : dueTimer c t = some .restart := by
      unfold dueTimer
      rw [ht]
      dsimp only
      rcases hst with hc | hc | hc <;> rw [hc] <;> (dsimp only; rw [if_pos hout])
    rw [hdue]
    rw [show timerAction false fuel worldBus t (some .restart) = discover false fuel worldBus t from rfl]
    exact leads_discover_noIp false fuel t (w2, c) trivial

/-- C106 is false in this: if a packet that says that it is a request (op 1) is at the head of the queue, then no call renews the lease, whatever else arrives, and so
whether the server acknowledges the REQUESTs or not; and the first call after the end of the lease takes the address away.  (The packet is never removed, see
`C39_rejected_packet_stays`.) -/
theorem C106_stray_packet (fuel n : Nat) (calls : List (List EnvStep × UInt32 × List (List EnvStep))) (w : World) (c : Client) (p : Nat) (ip : Ipv4) (g : Datagram)
    (hl : c.leasedIp = some ip) (ht : c.stateTimeout = none) (hr : RxState w.chip c.sn.toU8.toNat p)
    (hq : udpFrame g.src g.payload <+: w.chip.unread c.sn.toU8.toNat) (hlen : g.payload.length < 65536) (hx : g.payload.head? = some 1)
    (hin : ∀ x ∈ calls, x.2.1 - c.leaseSecs ≤ c.lease) :
    let s := laterCalls false fuel (n + 1) calls (w, c)
    s.2.leaseSecs = c.leaseSecs ∧ s.2.lease = c.lease ∧ s.2.leasedIp = some ip ∧
    ∀ es t sched, c.lease < t - c.leaseSecs →
      (process false fuel (n + 1) worldBus t (s.1.pause es sched, s.2)).2.1.chip.ownIp = [0, 0, 0, 0] := by
  have hl' : c.hasLease = true ∧ c.ip = ip := by
    unfold Client.leasedIp at hl
    split at hl
    · rename_i h; exact ⟨h, Option.some.inj hl⟩
    · cases hl
  obtain ⟨hl1, rfl⟩ := hl'
  obtain ⟨base, hb⟩ := RxState.at hr
  change udpFrame g.src g.payload <+: w.chip.unread c.sn.idx at hq
  change RxAt w.chip c.sn.idx base p at hb
  have hpause : ∀ (w : World) (sn : Sn) es sched, RxAt w.chip sn.idx base p → udpFrame g.src g.payload <+: w.chip.unread sn.idx →
      RxAt (w.pause es sched).chip sn.idx base p ∧ udpFrame g.src g.payload <+: (w.pause es sched).chip.unread sn.idx := by
    intro w sn es sched h1 h2
    obtain ⟨-, k2, k3⟩ := pause_calm sn.idx w es sched
    have h3 := k2 _ _ h1
    refine ⟨h3, ?_⟩
    rw [h3.state.data]
    rw [h1.state.data] at h2
    exact h2.trans (prefix_drop k3 p)
  suffices h : ∀ (w' : World) (c' : Client), LeaseSame c c' → RxAt w'.chip c.sn.idx base p → udpFrame g.src g.payload <+: w'.chip.unread c.sn.idx →
      LeaseSame c (laterCalls false fuel (n + 1) calls (w', c')).2 ∧ RxAt (laterCalls false fuel (n + 1) calls (w', c')).1.chip c.sn.idx base p ∧
      udpFrame g.src g.payload <+: (laterCalls false fuel (n + 1) calls (w', c')).1.chip.unread c.sn.idx by
    obtain ⟨h1, h2, h3⟩ := h w c ⟨hl1, ht, rfl, rfl, rfl, rfl⟩ hb hq
    refine ⟨h1.since, h1.secs, ?_, fun es t sched hout => ?_⟩
    · unfold Client.leasedIp; rw [if_pos h1.lease, h1.ip]
    · rw [← h1.sn] at h2 h3
      obtain ⟨i1, i2⟩ := hpause _ _ es sched h2 h3
      exact ((call_stray fuel n t _ _ base p g h1.lease h1.time i1 i2 hlen hx).2 (by rw [h1.since, h1.secs]; exact hout)).1
  clear hr hb hq
  induction calls with
  | nil => exact fun w' c' h1 h2 h3 => ⟨h1, h2, h3⟩
  | cons x calls ih =>
    obtain ⟨es, t, sched⟩ := x
    intro w' c' h1 h2 h3
    rw [← h1.sn] at h2 h3
    obtain ⟨i1, i2⟩ := hpause _ _ es sched h2 h3
    obtain ⟨j1, j2, j3⟩ := (call_stray fuel n t _ _ base p g h1.lease h1.time i1 i2 hlen hx).1 (by
      rw [h1.since, h1.secs]; exact hin (es, t, sched) (List.mem_cons_self ..))
    rw [h1.sn] at j2 j3
    exact ih (fun x hx => hin x (List.mem_cons_of_mem _ hx)) _ _ ⟨j1.lease, j1.time, j1.ip.trans h1.ip, j1.sn.trans h1.sn, j1.since.trans h1.since, j1.secs.trans h1.secs⟩ j2 j3

/-! ## C107: the form of a REQUEST -/

theorem request_selecting (mac : Eui48) (ip server : Ipv4) (hostname : Bytes) (xid : UInt32) :
    SelectingRequest (requestMessage mac ip hostname (some server) xid) ip.octets server.octets := ⟨rfl, rfl, rfl, rfl, rfl⟩

theorem request_not_renewing (mac : Eui48) (ip : Ipv4) (hostname : Bytes) (server : Option Ipv4) (xid : UInt32) (x : Bytes) :
    ¬ RenewingRequest (requestMessage mac ip hostname server xid) x := fun h => by cases h.requested

/-- C107 (the part that holds): a client that answers an OFFER in which the server names itself sends one message, and it has the form of a REQUEST of such a
client, for the address offered and to that server.  Missing: the REQUESTs with which it renews its lease, see `C107_renewing`. -/
theorem C107_selecting_partial (fuel n : Nat) (t : UInt32) (w : World) (c : Client) (p : Nat) (offer : Datagram) (ip server : Bytes)
    (hs : c.state = .selecting) (hr : RxState w.chip c.sn.toU8.toNat p) (htx : TxState w.chip c.sn.toU8.toNat) (hv : ValidHostname c.hostname)
    (ha : OnlyArrived c.sn.toU8.toNat w offer) (hof : IsOffer offer.payload ip (some server)) (hx : HasXid offer.payload c.xid)
    (hroom : 275 + c.hostname.length ≤ w.chip.txFsr c.sn.toU8.toNat) :
    ∃ s m, (process false fuel (n + 2) worldBus t (w, c)).2.1.chip.sent = w.chip.sent ++ [s] ∧ decode s.payload = some m ∧ SelectingRequest m ip server := by
  obtain ⟨base, hb⟩ := RxState.at hr
  obtain ⟨w', pl, x, rnd, e1, e2, e3, -⟩ := call_offer fuel n t w c base p offer (some server) hs hb ha.unread ha.silent hx (by rw [hof.reply]; decide)
    hof.short hof.long hof.server hv htx hroom
  rw [e1]
  refine ⟨_, _, e2, e3, ?_⟩
  have h := request_selecting c.mac (quad (field offer.payload 16 4)) (quad server) c.hostname x
  rw [quad_octets (contents_length hof.server), quad_octets (by unfold field; have := hof.long; simp; omega)] at h
  rw [← hof.yiaddr]
  exact h

/-- C107 is false in this: the REQUEST with which a bound client renews (or rebinds) its lease never has the form of such a REQUEST.  Its `ciaddr` is zero and it
has a requested address; if the client knows its server, it has the form of an answer to an OFFER. -/
theorem C107_renewing (fuel n : Nat) (t : UInt32) (w : World) (c : Client) (p : Nat) (ip : Ipv4)
    (hl : c.leasedIp = some ip) (ht : c.stateTimeout = none) (hr : RxState w.chip c.sn.toU8.toNat p) (htx : TxState w.chip c.sn.toU8.toNat)
    (hv : ValidHostname c.hostname) (hq : w.chip.unread c.sn.toU8.toNat = []) (hst : ∀ es ∈ w.sched, ∀ bs, EnvStep.arrive c.sn.toU8.toNat bs ∉ es)
    (hd : dueTimer c t = some .renew ∨ dueTimer c t = some .rebind)
    (hin : t - c.leaseSecs ≤ c.lease) (hroom : 275 + c.hostname.length ≤ w.chip.txFsr c.sn.toU8.toNat) :
    ∃ s m, (process false fuel (n + 2) worldBus t (w, c)).2.1.chip.sent = w.chip.sent ++ [s] ∧ decode s.payload = some m ∧
      s.ip = w.chip.destIp c.sn.toU8.toNat ∧ ¬ RenewingRequest m ip.octets ∧ m.ciaddr = [0, 0, 0, 0] ∧
      (∀ server, c.serverId = some server → SelectingRequest m ip.octets server.octets) := by
  have hl' : c.hasLease = true ∧ c.ip = ip := by
    unfold Client.leasedIp at hl
    split at hl
    · rename_i h; exact ⟨h, Option.some.inj hl⟩
    · cases hl
  obtain ⟨hl1, rfl⟩ := hl'
  obtain ⟨base, hb⟩ := RxState.at hr
  obtain ⟨w', c', p', e1, -, -, -, e5⟩ := call_leased fuel n t w c base p hl1 ht hb htx hv hr.le none (.nothing hq hst) (fun _ => hin) hroom
  rw [e1]
  rcases e5 with ⟨-, ⟨h1, -⟩ | ⟨s, x, rnd, st, ⟨g1, g2, g3, g4⟩, g5, -⟩⟩ | ⟨a, h1, -⟩
  · rcases hd with hd | hd <;> rw [hd] at h1 <;> cases h1
  · refine ⟨s, _, g5, g4, g2, request_not_renewing _ _ _ _ _ _, rfl, fun server hs => ?_⟩
    rw [hs]
    exact request_selecting ..
  · cases h1

/-! ## The hypotheses are met -/

/-- A chip with the address of `leasedClient`. -/
def leasedWorld : World := queueWorld [10, 10, 10, 10] []

/-- The ACK of the first REQUEST of `leasedClient`. -/
def renewalAck : Bytes :=
  [2, 1, 6, 0, 220, 144, 114, 178] ++ List.replicate 228 0 ++ [99, 130, 83, 99] ++
    [53, 1, 5, 1, 4, 255, 255, 255, 0, 3, 4, 10, 0, 0, 254, 54, 4, 10, 0, 0, 1, 6, 4, 8, 8, 8, 8, 51, 4, 0, 0, 3, 232, 255]

def renewalSent : Except Err UInt32 × World × Client := process false 9 3 worldBus 600 (leasedWorld.pause [] [], leasedClient)
def renewalAnswered : World := renewalSent.2.1.pause [.free 5 500, .arrive 5 (udpFrame server renewalAck)] []

theorem renewalAck_is : IsAck renewalAck sampleAckData :=
  ⟨by decide +kernel, by decide +kernel, by decide +kernel, by decide +kernel, by decide +kernel, by decide +kernel, by decide +kernel, by decide +kernel⟩

theorem leasedWorld_rx : RxState leasedWorld.chip 5 0 :=
  ⟨by decide +kernel, by decide +kernel, by decide +kernel, by decide +kernel, by decide +kernel, by decide +kernel⟩
theorem leasedWorld_tx : TxState leasedWorld.chip 5 := ⟨by decide +kernel, by decide +kernel, by decide +kernel, by decide +kernel⟩

example : leasedClient.leasedIp = some ⟨10, 10, 10, 10⟩ ∧ leasedClient.state = .bound ∧ leasedClient.stateTimeout = none ∧ leasedWorld.chip.unread 5 = [] ∧
    leasedWorld.chip.ownIp = [10, 10, 10, 10] ∧ leasedClient.t1 < 600 - leasedClient.leaseSecs ∧ 600 - leasedClient.leaseSecs ≤ leasedClient.t2 ∧
    600 - leasedClient.leaseSecs ≤ leasedClient.lease ∧ dueTimer leasedClient 600 = some .renew ∧
    275 + leasedClient.hostname.length ≤ (leasedWorld.pause [] []).chip.txFsr 5 ∧ (leasedWorld.pause [] []).chip.unread 5 = [] := by decide +kernel
set_option maxRecDepth 8000 in
theorem renewal_arrived : OnlyArrived 5 renewalAnswered ⟨server, renewalAck⟩ := ⟨by decide +kernel, nofun⟩
set_option maxRecDepth 8000 in
theorem renewal_xid : HasXid renewalAck renewalSent.2.2.xid := by decide +kernel
set_option maxRecDepth 8000 in
theorem renewal_room : 275 + renewalSent.2.2.hostname.length ≤ renewalAnswered.chip.txFsr 5 := by decide +kernel

/-- Called at 600 s, the client asks for a renewal; at 603 s it finds the ACK, and it is called again at 1100 s. -/
theorem renewal_served : ServedInTime 9 3 [([], 600, []), ([.free 5 500, .arrive 5 (udpFrame server renewalAck)], 603, [])] (leasedWorld, leasedClient) :=
  ⟨⟨none, .nothing (by decide +kernel) nofun, fun _ => by decide +kernel⟩, by decide +kernel,
    ⟨some sampleAckData, .ack ⟨server, renewalAck⟩ sampleAckData renewal_arrived (by decide +kernel) (by decide +kernel) renewal_xid renewalAck_is rfl rfl,
      fun h => by
        rcases h with h | h
        · cases h
        · exact absurd h (by decide +kernel)⟩, renewal_room, trivial⟩

example : (laterCalls false 9 3 [([], 600, []), ([.free 5 500, .arrive 5 (udpFrame server renewalAck)], 603, [])] (leasedWorld, leasedClient)).2.leasedIp =
    some ⟨10, 10, 10, 10⟩ :=
  (C106_keeps_partial 9 1 _ leasedWorld leasedClient 0 _ rfl rfl leasedWorld_rx (by decide +kernel) leasedWorld_tx freshClient_hostname (by decide +kernel) renewal_served).1

/-- With a stray packet in its queue the client loses its address. -/
def strayWorld : World := queueWorld [10, 10, 10, 10] [⟨server, [1, 2, 3]⟩]

example (calls : List (List EnvStep × UInt32 × List (List EnvStep))) (h : ∀ x ∈ calls, x.2.1 - 50 ≤ 1000) (es : List EnvStep) (sched : List (List EnvStep)) :
    let s := laterCalls false 9 3 calls (strayWorld, leasedClient)
    (process false 9 3 worldBus 1051 (s.1.pause es sched, s.2)).2.1.chip.ownIp = [0, 0, 0, 0] :=
  (C106_stray_packet 9 2 calls strayWorld leasedClient 0 ⟨10, 10, 10, 10⟩ ⟨server, [1, 2, 3]⟩ rfl rfl
    ⟨by decide +kernel, by decide +kernel, by decide +kernel, by decide +kernel, by decide +kernel, by decide +kernel⟩ ⟨[], by decide +kernel⟩ (by decide) (by decide) h).2.2.2
    es 1051 sched (by decide +kernel)

end Verif.Thm

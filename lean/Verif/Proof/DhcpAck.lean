import Verif.Proof.DhcpTimers
import Verif.Proof.TxOnly
/-!
# An ACK, and a client that is bound
-/
namespace Verif
open Hl Spec Dhcp
open Thm (quad_octets quad_num contents_length Gives)

theorem writeBytes_common_rest (c : Chip) (a : Nat) (x0 x1 x2 x3 : UInt8) :
    (c.writeBytes 0 a [x0, x1, x2, x3]).sent = c.sent ∧ (c.writeBytes 0 a [x0, x1, x2, x3]).received = c.received := ⟨rfl, rfl⟩

/-- Writing an address to a common register leaves the sockets as they are. -/
theorem calm_common (k a : Nat) (x0 x1 x2 x3 : UInt8) (w : World) (ha : a + 4 < 65536) :
    Calm k w { w with chip := w.chip.writeBytes 0 a [x0, x1, x2, x3] } := by
  have hm := writeBytes_common w.chip a x0 x1 x2 x3 ha
  obtain ⟨hsent, hrecv⟩ := writeBytes_common_rest w.chip a x0 x1 x2 x3
  generalize w.chip.writeBytes 0 a [x0, x1, x2, x3] = c' at hm hsent hrecv
  have hb : ∀ b i, b ≠ 0 → c'.mem b i = w.chip.mem b i := by
    intro b i h; rw [hm]; simp only; rw [if_neg (by omega)]
  have hr : ∀ i, c'.mem (4 * k + 1) i = w.chip.mem (4 * k + 1) i := fun i => hb _ _ (by omega)
  have e1 : c'.txSize k = w.chip.txSize k := by unfold Chip.txSize; rw [hr]
  have e2 : c'.txRd k = w.chip.txRd k := by unfold Chip.txRd Mem.word; rw [hr, hr]
  have e3 : c'.txWr k = w.chip.txWr k := by unfold Chip.txWr Mem.word; rw [hr, hr]
  have e4 : c'.txFsr k = w.chip.txFsr k := by unfold Chip.txFsr Mem.word; rw [hr, hr]
  have e5 : c'.rxRd k = w.chip.rxRd k := by unfold Chip.rxRd Mem.word; rw [hr, hr]
  refine ⟨⟨⟨fun h => ⟨by rw [e1]; exact h.size_dvd, by rw [e1]; exact h.size_lt, by rw [e2, e3]; exact h.idle,
    by rw [e1, e4]; exact h.fsr_le⟩, fun _ => Nat.le_of_eq e4.symm, hsent, ?_, e1, ?_, ?_⟩, fun h => ⟨by rw [hr]; exact h.now, h.later⟩⟩, fun base p h => ⟨?_, ?_⟩,
    fun P p h => ⟨by rw [hrecv]; exact h.le, by rw [hrecv]; exact h.now, h.future⟩,
    by rw [hrecv]; exact List.prefix_refl _⟩
  · unfold Chip.rxSize; rw [hr]
  · exact destIp_congr fun y _ _ => hr y
  · unfold Chip.destPort Mem.word; rw [hr, hr]
  · exact (RxSame.of_mem (fun a _ => hr a) (fun a => hb _ _ (by omega)) (by rw [hrecv])).rxOk h.rx
  · exact e5.trans h.rd

/-! ## Receiving -/

theorem readOnly_udpReader (dbg : Bool) (sn : Sn) : Thm.ReadOnly (udpReader dbg worldBus sn) := by
  rw [udpReader_body]
  refine .bind (Thm.readOnly_debugAssert dbg (Thm.readOnly_srIsUdp sn)) fun _ => ?_
  unfold udpReaderBody
  refine .bind (Thm.readOnly_snRxRsr sn) fun _ => ?_
  split
  · intro w; exact ⟨0, rfl⟩
  · exact .bind (Thm.readOnly_snRxRd sn) fun _ => .bind (Thm.readOnly_snRxBuf sn _ _) fun _ => .pure _

theorem udpReader_sn (dbg : Bool) (sn : Sn) (w w1 : World) (u : UdpReader) (h : udpReader dbg worldBus sn w = (.ok u, w1)) :
    u.inner.sn = sn := by
  rw [udpReader_body, M.bind_run] at h
  rcases hd : debugAssert dbg (srIsUdp worldBus sn) w with ⟨e | _, w0⟩ <;> rw [hd] at h
  · cases h
  · dsimp only at h
    unfold udpReaderBody at h
    rw [M.bind_ok (run_snRxRsr sn w0)] at h
    by_cases hl : UInt16.ofNat (w0.tick.chip.rxRsr sn.idx) < UdpHeader.LEN
    · rw [if_pos hl] at h; cases h
    · rw [if_neg hl] at h
      cases h; rfl

theorem recv_later (dbg : Bool) (sn : Sn) (xid : UInt32) (w : World) :
    ∃ r w1, recv dbg worldBus sn xid w = (r, w1) ∧ Later w w1 ∧ ∀ u, r = .ok (some u) → u.inner.sn = sn := by
  unfold recv
  obtain ⟨j, hj⟩ := readOnly_udpReader dbg sn w
  rcases hu : udpReader dbg worldBus sn w with ⟨e | u, w1⟩ <;> rw [hu] at hj <;> dsimp only at hj ⊢
  · cases e <;> exact ⟨_, _, rfl, ⟨j, hj⟩, nofun⟩
  · have hl : Later w w1 := ⟨j, hj⟩
    have hsn := udpReader_sn dbg sn w w1 u hu
    unfold recvCheck
    split
    · exact ⟨_, _, rfl, hl, nofun⟩
    · have hr := udpReader_run_any (b := worldBus) (checkProg xid) w1 u
      have h2 := later_rprog (checkProg xid) w1 u.inner
      have h3 := prog_sn (b := worldBus) (checkProg xid) w1 u.inner
      rw [M.bind_run]
      unfold onUdpReader
      rw [hr]
      rcases ht : (checkProg xid).run (tcpReaderOps worldBus) (w1, u.inner) with ⟨e | a, w2, p'⟩ <;> rw [ht] at h2 h3
      · exact ⟨_, _, rfl, hl.trans h2, nofun⟩
      · refine ⟨_, _, rfl, hl.trans h2, ?_⟩
        intro u' hu'
        dsimp only at hu'
        cases a
        · cases hu'
        · cases hu'; exact h3.trans hsn

/-- The packets do not change a bound client, and nothing is sent. -/
theorem packets_bound (dbg : Bool) (fuel : Nat) (secs : UInt32) (c : Client) (hs : c.state = .bound) (n : Nat) (w : World) :
    ∃ r w1, packets dbg fuel worldBus secs n (w, c) = (r, (w1, c)) ∧ TxCalm c.sn.idx w w1 ∧ ∀ x, r = .ok x → x = none := by
  induction n generalizing w with
  | zero => exact ⟨_, w, rfl, .refl _ w, nofun⟩
  | succ n ih =>
    obtain ⟨r, w1, h1, h2, h3⟩ := recv_later dbg c.sn c.xid w
    unfold packets
    rw [M.bind_ok (show getC (w, c) = (.ok c, (w, c)) from rfl), bind_onBus, h1]
    have hc := (h2.calm c.sn.idx).toTxCalm
    rcases r with e | _ | u
    · exact ⟨_, w1, rfl, hc, nofun⟩
    · exact ⟨_, w1, rfl, hc, fun x hx => by cases hx; rfl⟩
    · dsimp only
      have hsn := h3 u rfl
      have hd := txCalm_done u w1
      rw [hsn] at hd
      have hh : handle dbg fuel worldBus secs u (w1, c) = (onBus (udpReaderDone worldBus u) >>= fun _ => pure none) (w1, c) := by
        unfold handle
        rw [M.bind_ok (show getC (w1, c) = (.ok c, (w1, c)) from rfl), hs]
      rw [M.bind_run, hh, bind_onBus]
      rcases hdn : udpReaderDone worldBus u w1 with ⟨e | _, w2⟩ <;> rw [hdn] at hd
      · exact ⟨_, w2, rfl, hc.trans hd, nofun⟩
      · obtain ⟨r, w3, e1, e2, e3⟩ := ih w2
        refine ⟨r, w3, ?_, (hc.trans hd).trans e2, e3⟩
        exact e1

/-! ## Reading an ACK -/

theorem givesBind {α β : Type} {d : Bytes} {prog : RProg (α × Cache)} {a : α} {f : α × Cache → RProg β}
    (h : Gives d prog (.ok a)) {p : Nat} (hp : p ≤ d.length) :
    ∃ c p', CacheOk d c ∧ p' ≤ d.length ∧ (prog >>= f).run cursorOps ⟨d, p⟩ = (f (a, c)).run cursorOps ⟨d, p'⟩ := by
  obtain ⟨c, p', h1, h2, h3⟩ := h p hp
  exact ⟨c, p', h1, h2, RProg.bind_ok h3⟩

/-- The options of an ACK as the client reads them. -/
def ackOpts (a : Ack) : AckOpts := ⟨a.mask.map quad, a.server.map quad, a.dns.map quad, a.ntp.map quad⟩
def word (x : Bytes) : UInt32 := quadU32 (quad x)
def ackLease (a : Ack) : UInt32 := word a.lease
def ackT1 (a : Ack) : UInt32 := (a.t1.map word).getD (ackLease a / 2)
def ackT2 (a : Ack) : UInt32 := (a.t2.map word).getD (satMul7 (ackLease a) / 8)

theorem run_ackProg {d : Bytes} (hd : d.length ≤ 65280) {a : Ack} (ha : IsAck d a) {c : Cache} (hc : CacheOk d c) {p : Nat}
    (hp : p ≤ d.length) :
    ∃ p' ≤ d.length, (ackProg c).run cursorOps ⟨d, p⟩ = (.ok (ackOpts a, some (ackLease a, ackT1 a, ackT2 a)), ⟨d, p'⟩) := by
  have ip : ∀ {opt : UInt8} {ok : Nat → Bool} {x : Option Bytes} {prog : RProg (Option Ipv4 × Cache)},
      Gives d prog ((contents d opt ok 4).map (·.map quad)) → contents d opt ok 4 = .ok x → Gives d prog (.ok (x.map quad)) := by
    intro opt ok x prog h1 h2; rw [h2] at h1; exact h1
  have tm : ∀ {opt : UInt8} {x : Option Bytes} {prog : RProg (Option UInt32 × Cache)},
      Gives d prog ((contents d opt (· == 4) 4).map (·.map fun x => quadU32 (quad x))) → contents d opt (· == 4) 4 = .ok x →
      Gives d prog (.ok (x.map word)) := by
    intro opt x prog h1 h2; rw [h2] at h1; exact h1
  have hopts : ∃ c' p', CacheOk d c' ∧ p' ≤ d.length ∧ (ackOptsProg c).run cursorOps ⟨d, p⟩ = (.ok (ackOpts a, c'), ⟨d, p'⟩) := by
    unfold ackOptsProg
    obtain ⟨c1, p1, h1, q1, e1⟩ := givesBind (ip (Thm.gives_ipv4 hd 1 hc) ha.mask) hp (f := _)
    refine Exists.imp (fun _ => Exists.imp fun _ => And.imp_right (And.imp_right fun h => e1.trans h)) ?_
    obtain ⟨c2, p2, h2, q2, e2⟩ := givesBind (ip (Thm.gives_list hd 54 h1) ha.server) q1 (f := _)
    refine Exists.imp (fun _ => Exists.imp fun _ => And.imp_right (And.imp_right fun h => e2.trans h)) ?_
    obtain ⟨c3, p3, h3, q3, e3⟩ := givesBind (ip (Thm.gives_list hd 6 h2) ha.dns) q2 (f := _)
    refine Exists.imp (fun _ => Exists.imp fun _ => And.imp_right (And.imp_right fun h => e3.trans h)) ?_
    obtain ⟨c4, p4, h4, q4, e4⟩ := givesBind (ip (Thm.gives_list hd 42 h3) ha.ntp) q3 (f := _)
    refine Exists.imp (fun _ => Exists.imp fun _ => And.imp_right (And.imp_right fun h => e4.trans h)) ?_
    exact ⟨c4, p4, h4, q4, rfl⟩
  have htimes : ∀ {c : Cache} {p : Nat}, CacheOk d c → p ≤ d.length →
      ∃ p' ≤ d.length, (ackTimesProg (ackLease a) c).run cursorOps ⟨d, p⟩ = (.ok (ackT1 a, ackT2 a), ⟨d, p'⟩) := by
    intro c p hc hp
    unfold ackTimesProg
    obtain ⟨c1, p1, h1, q1, e1⟩ := givesBind (tm (Thm.gives_u32 hd 58 hc) ha.t1) hp (f := _)
    refine Exists.imp (fun _ => And.imp_right fun h => e1.trans h) ?_
    obtain ⟨c2, p2, h2, q2, e2⟩ := givesBind (tm (Thm.gives_u32 hd 59 h1) ha.t2) q1 (f := _)
    refine Exists.imp (fun _ => And.imp_right fun h => e2.trans h) ?_
    exact ⟨p2, q2, rfl⟩
  unfold ackProg
  obtain ⟨c1, p1, h1, q1, e1⟩ := hopts
  rw [RProg.bind_ok e1]
  obtain ⟨c2, p2, h2, q2, e2⟩ := givesBind (tm (Thm.gives_u32 hd 51 h1) ha.lease) q1 (f := _)
  refine Exists.imp (fun _ => And.imp_right fun h => e2.trans h) ?_
  obtain ⟨p3, q3, e3⟩ := htimes h2 q2
  refine ⟨p3, q3, ?_⟩
  show (ackTimesProg (ackLease a) c2 >>= fun r => pure (ackOpts a, some (ackLease a, r.1, r.2))).run cursorOps ⟨d, p2⟩ = _
  rw [RProg.bind_ok e3]; rfl

/-! ## Acting on an ACK -/

/-- The client after an ACK. -/
def acked (c : Client) (secs : UInt32) (a : Ack) : Client :=
  { (c.setTimers (ackLease a) (ackT1 a) (ackT2 a) secs) with
    dns := (a.dns.map quad).or c.dns, ntp := (a.ntp.map quad).or c.ntp, state := .bound, stateTimeout := none }

theorem run_setCommon (a : Nat) (v : Ipv4) (k : Nat) (w : World) (ha : a + 4 < 65536) :
    Calm k w { w.tick with chip := w.tick.chip.writeBytes 0 a [v.a, v.b, v.c, v.d] } :=
  (calm_tick k w).trans (calm_common k a _ _ _ _ w.tick ha)

/-- A common register is kept while another is written. -/
theorem common_keep (a b : Nat) (v : Ipv4) (w : World) (ha : a + 4 < 65536) (hab : b + 4 ≤ a ∨ a + 4 ≤ b) :
    (List.range 4).map (fun i => (w.tick.chip.writeBytes 0 a [v.a, v.b, v.c, v.d]).mem 0 (b + i)) =
      (List.range 4).map fun i => w.chip.mem 0 (b + i) := by
  rw [writeBytes_common _ _ _ _ _ _ ha]
  apply List.map_congr_left
  intro i hi
  have := List.mem_range.mp hi
  simp only
  rw [if_neg (by omega)]
  exact tick_mem0 w _

theorem common_set (a : Nat) (v : Ipv4) (w : World) (ha : a + 4 < 65536) :
    (List.range 4).map (fun i => (w.tick.chip.writeBytes 0 a [v.a, v.b, v.c, v.d]).mem 0 (a + i)) = v.octets := by
  rw [writeBytes_common _ _ _ _ _ _ ha]
  simp [List.range_succ, Ipv4.octets]

theorem UR.done_calm {w : World} {u : UdpReader} {sn : Sn} {d : Bytes} {pos base p : Nat} (h : UR w u sn d pos base p) :
    ∃ w', udpReaderDone worldBus u w = (.ok (), w') ∧ RxAt w'.chip sn.idx base (p + (8 + d.length)) ∧
      w.chip.received sn.idx <+: w'.chip.received sn.idx ∧ TxCalm sn.idx w w' := by
  obtain ⟨w', h1, h2, h3⟩ := h.done
  have := txCalm_done u w
  rw [h.sn_eq, h1] at this
  exact ⟨w', h1, h2, h3, this⟩

/-- What is still to come is left alone when a datagram is consumed. -/
theorem done_pending (u : UdpReader) (w : World) (k : Nat) :
    (∀ P q, Pending P k q w → Pending P k q (udpReaderDone worldBus u w).2) ∧
    (Still k w → Still k (udpReaderDone worldBus u w).2 ∧ (udpReaderDone worldBus u w).2.chip.received k = w.chip.received k) := by
  unfold udpReaderDone
  rw [M.bind_ok (run_setSnRxRd u.inner.sn u.inner.tail w), run_setSnCr, command_recv]
  generalize hw1 : ({ w.tick with chip := w.tick.chip.setReg u.inner.sn.idx 0x28 u.inner.tail.toNat } : World) = w1
  refine ⟨fun P q h => ?_, fun h => ?_⟩
  · have h1 : Pending P k q w1 := by rw [← hw1]; exact ⟨h.tick.le, h.tick.now, h.tick.future⟩
    exact ⟨h1.tick.le, h1.tick.now, h1.tick.future⟩
  · have h1 : Still k w1 ∧ w1.chip.received k = w.chip.received k := by rw [← hw1]; exact ⟨h.tick.1, h.tick.2⟩
    exact ⟨h1.1.tick.1, h1.1.tick.2.trans h1.2⟩

/-- The end of an ACK. -/
theorem run_ackBound (c : Client) (o : AckOpts) (w : World) :
    ∃ w', ackBound worldBus o (w, c) = (.ok (), (w', { c with dns := o.dns.or c.dns, ntp := o.ntp.or c.ntp, state := .bound, stateTimeout := none })) ∧
      Calm c.sn.idx w w' ∧ w'.chip.subnet = w.chip.subnet ∧ w'.chip.gateway = w.chip.gateway ∧
      (c.state = .requesting → w'.chip.ownIp = c.ip.octets) := by
  unfold ackBound
  rw [M.bind_ok (show getC (w, c) = (.ok c, (w, c)) from rfl)]
  by_cases h : c.state = .requesting
  · rw [if_pos h, bind_onBus]
    refine ⟨_, rfl, run_setCommon 15 c.ip _ w (by omega), common_keep 15 5 c.ip w (by omega) (by omega),
      common_keep 15 1 c.ip w (by omega) (by omega), fun _ => common_set 15 c.ip w (by omega)⟩
  · rw [if_neg h]
    exact ⟨w, rfl, .refl _ w, rfl, rfl, fun h' => absurd h' h⟩

theorem run_ackGateway (dbg : Bool) (secs : UInt32) (c : Client) (o : AckOpts) (w : World) (hg : o.gateway.isSome ∨ c.state = .renewing) :
    ∃ w', ackGateway dbg worldBus secs o (w, c) = (.ok none, (w', { c with dns := o.dns.or c.dns, ntp := o.ntp.or c.ntp, state := .bound, stateTimeout := none })) ∧
      Calm c.sn.idx w w' ∧ w'.chip.subnet = w.chip.subnet ∧ (∀ g, o.gateway = some g → w'.chip.gateway = g.octets) ∧
      (c.state = .requesting → w'.chip.ownIp = c.ip.octets) := by
  unfold ackGateway
  rw [M.bind_ok (show getC (w, c) = (.ok c, (w, c)) from rfl)]
  rcases hgo : o.gateway with _ | g
  · have hr : c.state = .renewing := by
      rcases hg with hg | hg
      · rw [hgo] at hg; cases hg
      · exact hg
    dsimp only
    rw [if_pos hr]
    obtain ⟨w', h1, h2, h3, h4, h5⟩ := run_ackBound c o w
    rw [M.bind_ok h1]
    exact ⟨w', rfl, h2, h3, nofun, h5⟩
  · dsimp only
    rw [bind_onBus]
    obtain ⟨w', h1, h2, h3, h4, h5⟩ := run_ackBound c o { w.tick with chip := w.tick.chip.writeBytes 0 1 [g.a, g.b, g.c, g.d] }
    refine ⟨w', (M.bind_ok h1).trans rfl, (run_setCommon 1 g _ w (by omega)).trans h2, h3.trans (common_keep 1 5 g w (by omega) (by omega)), ?_, h5⟩
    intro g' hg'
    cases hg'
    exact h4.trans (common_set 1 g w (by omega))

theorem run_ackMask (dbg : Bool) (secs : UInt32) (c : Client) (o : AckOpts) (w : World) (hm : o.mask.isSome ∨ c.state = .renewing)
    (hg : o.gateway.isSome ∨ c.state = .renewing) :
    ∃ w', ackMask dbg worldBus secs o (w, c) = (.ok none, (w', { c with dns := o.dns.or c.dns, ntp := o.ntp.or c.ntp, state := .bound, stateTimeout := none })) ∧
      Calm c.sn.idx w w' ∧ (∀ m, o.mask = some m → w'.chip.subnet = m.octets) ∧ (∀ g, o.gateway = some g → w'.chip.gateway = g.octets) ∧
      (c.state = .requesting → w'.chip.ownIp = c.ip.octets) := by
  unfold ackMask
  rw [M.bind_ok (show getC (w, c) = (.ok c, (w, c)) from rfl)]
  rcases hmo : o.mask with _ | m
  · have hr : c.state = .renewing := by
      rcases hm with hm | hm
      · rw [hmo] at hm; cases hm
      · exact hm
    dsimp only
    rw [if_pos hr]
    obtain ⟨w', h1, h2, h3, h4, h5⟩ := run_ackGateway dbg secs c o w hg
    exact ⟨w', h1, h2, nofun, h4, h5⟩
  · dsimp only
    rw [bind_onBus]
    obtain ⟨w', h1, h2, h3, h4, h5⟩ := run_ackGateway dbg secs c o { w.tick with chip := w.tick.chip.writeBytes 0 5 [m.a, m.b, m.c, m.d] } hg
    refine ⟨w', h1, (run_setCommon 5 m _ w (by omega)).trans h2, ?_, h4, h5⟩
    intro m' hm'
    cases hm'
    exact h3.trans (common_set 5 m w (by omega))

/-- A complete ACK makes the client bound. -/
theorem handle_ack (dbg : Bool) (fuel : Nat) (secs : UInt32) {w : World} {u : UdpReader} {d : Bytes} {pos base p : Nat} {c : Client} {a : Ack}
    (hu : UR w u c.sn d pos base p) (hd : d.length ≤ 65280) (ha : IsAck d a)
    (hs : c.state = .requesting ∨ c.state = .renewing ∨ c.state = .rebinding)
    (hm : a.mask.isSome ∨ c.state = .renewing) (hg : a.server.isSome ∨ c.state = .renewing) :
    ∃ w', handle dbg fuel worldBus secs u (w, c) = (.ok none, (w', acked c secs a)) ∧
      RxAt w'.chip c.sn.idx base (p + (8 + d.length)) ∧ w.chip.received c.sn.idx <+: w'.chip.received c.sn.idx ∧ TxCalm c.sn.idx w w' ∧
      (∀ m, a.mask = some m → w'.chip.subnet = m) ∧ (∀ g, a.server = some g → w'.chip.gateway = g) ∧
      (c.state = .requesting → w'.chip.ownIp = c.ip.octets) ∧ (∀ P q, Pending P c.sn.idx q w → Pending P c.sn.idx q w') := by
  have hh : handle dbg fuel worldBus secs u (w, c) = onReply dbg fuel worldBus secs u (w, c) := by
    unfold handle
    rw [M.bind_ok (show getC (w, c) = (.ok c, (w, c)) from rfl)]
    rcases hs with hs | hs | hs <;> rw [hs]
  rw [hh]
  unfold onReply
  have gm := Thm.gives_msgType hd (Thm.Reached.start.ok hd)
  rw [ha.type] at gm
  obtain ⟨c1, p1, k1, q1, e1⟩ := gm pos hu.pos_le
  obtain ⟨w1, u1, r1, l1, hu1⟩ := hu.run_ok e1
  rw [bind_onBus, r1]
  dsimp only
  show ∃ w', onAck dbg worldBus secs u1 c1 (w1, c) = _ ∧ _
  unfold onAck
  obtain ⟨p2, q2, e2⟩ := run_ackProg hd ha k1 q1
  obtain ⟨w2, u2, r2, l2, hu2⟩ := hu1.run_ok e2
  rw [bind_onBus, r2]
  dsimp only
  obtain ⟨w3, r3, h3, h4, h5⟩ := hu2.done_calm
  rw [M.bind_ok (show modC (Client.setTimers (ackLease a) (ackT1 a) (ackT2 a) secs) (w2, c) = (.ok (), (w2, c.setTimers (ackLease a) (ackT1 a) (ackT2 a) secs)) from rfl),
    bind_onBus, r3]
  dsimp only
  obtain ⟨w4, r4, h6, h7, h8, h9⟩ := run_ackMask dbg secs (c.setTimers (ackLease a) (ackT1 a) (ackT2 a) secs) (ackOpts a) w3
    (hm.imp_left fun h => by unfold ackOpts; simpa using h) (hg.imp_left fun h => by unfold ackOpts; simpa using h)
  have k2 : Calm c.sn.idx w w2 := (l1.trans l2).calm _
  refine ⟨w4, r4, h6.rx _ _ h3, k2.recvd.trans (h4.trans h6.recvd), (k2.toTxCalm.trans h5).trans h6.toTxCalm, ?_, ?_, h9, fun P q h => h6.pending P q ?_⟩
  · intro m hm
    rw [h7 (quad m) (by unfold ackOpts; rw [hm]; rfl)]
    exact quad_octets (contents_length (by rw [ha.mask, hm]))
  · intro g hg
    rw [h8 (quad g) (by unfold ackOpts; rw [hg]; rfl)]
    exact quad_octets (contents_length (by rw [ha.server, hg]))
  · have := (done_pending u2 w2 c.sn.idx).1 P q (k2.pending P q h)
    rw [r3] at this
    exact this

end Verif

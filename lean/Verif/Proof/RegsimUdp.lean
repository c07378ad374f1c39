import Verif.Proof.RegsimRing
import Verif.Model.Hl.Udp
import Verif.Proof.Seek
/-!
# The register simulator under the UDP driver
-/
namespace Verif.Sim
open Hl

/-- An open UDP socket of the simulator, seen from the transmit side, while the operating system does not fail. -/
structure UdpAt (sn : Sn) (s : Sim) (rd wr : UInt16) (buf : Bytes) (dst : SockAddr) (out : List Out) : Prop where
  inner : (s.sn sn).inner = some .udp
  sr : (s.sn sn).regs.sr = .udp
  rd : (s.sn sn).regs.txRd = rd
  wr : (s.sn sn).regs.txWr = wr
  buf : (s.sn sn).txBuf = buf
  dst : (s.sn sn).regs.dest = dst
  ok : SocketOk (s.sn sn)
  rx : RxFine (s.sn sn)
  os : OsOk s.answers
  out : s.out = out

variable {sn : Sn} {s : Sim} {rd wr : UInt16} {buf : Bytes} {dst : SockAddr} {out : List Out}

theorem UdpAt.check (h : UdpAt sn s rd wr buf dst out) : ∃ s', checkSocket sn s = (.ok (), s') ∧ UdpAt sn s' rd wr buf dst out := by
  rcases ha : s.answers with _ | ⟨a, rest⟩
  · exact ⟨s, checkSocket_nil sn s ha, h⟩
  · have ho : OsOk rest := by
      have := h.os.drop
      rwa [ha] at this
    have hask : ask s = (.ok a, { s with answers := rest }) := by unfold ask; rw [ha]
    have quiet : (a = .done ∨ a = .wouldBlock) → ∃ s', checkSocket sn s = (.ok (), s') ∧ UdpAt sn s' rd wr buf dst out := by
      intro e
      refine ⟨{ s with answers := rest }, ?_, ⟨h.inner, h.sr, h.rd, h.wr, h.buf, h.dst, h.ok, h.rx, ho, h.out⟩⟩
      unfold checkSocket
      rw [M.bind_ok (getSocket_run sn s)]
      simp only [h.inner, M.bind_ok hask]
      rcases e with e | e <;> subst e <;> rfl
    cases a with
    | done => exact quiet (.inl rfl)
    | wouldBlock => exact quiet (.inr rfl)
    | fail k => exact absurd (by rw [ha]; exact List.mem_cons_self) (h.os k)
    | data o bytes =>
      obtain ⟨b, w, r, hr, hf, hl, -⟩ := check_datagram sn s o bytes rest ha h.inner h.rx h.ok.rx.symm
      refine ⟨_, hr, ?_⟩
      have hs : ({ s.setSocket sn (arrived (s.sn sn) b w r) with regs.sir := s.regs.sir ||| sn.bitmask, answers := rest } : Sim).sn sn
        = arrived (s.sn sn) b w r := setSocket_same s sn _
      constructor
      · rw [hs]; exact h.inner
      · rw [hs]; exact h.sr
      · rw [hs]; exact h.rd
      · rw [hs]; exact h.wr
      · rw [hs]; exact h.buf
      · rw [hs]; exact h.dst
      · rw [hs]
        exact ⟨h.ok.tx, hl.trans h.ok.rx, h.ok.fsr, or_lt16 _ _ h.ok.ir (by decide)⟩
      · rw [hs]; exact hf
      · exact ho
      · exact h.out

theorem UdpAt.regRd (h : UdpAt sn s rd wr buf dst out) (addr : UInt16) :
    ∃ s', socketRegRd addr sn s = (.ok (regValue (s.sn sn).regs addr), s') ∧ UdpAt sn s' rd wr buf dst out := by
  unfold socketRegRd
  rw [M.bind_ok (getSocket_run sn s)]
  by_cases hc : SnReg.tryFrom addr ≠ .ok .RX_RSR0
  · obtain ⟨s', hr, hs⟩ := h.check
    simp only [if_pos hc]
    rw [M.bind_ok hr]
    exact ⟨s', rfl, hs⟩
  · simp only [if_neg hc]
    exact ⟨s, rfl, h⟩

theorem UdpAt.snSr (h : UdpAt sn s rd wr buf dst out) (dbg : Bool) :
    ∃ s', (simBus dbg).snSr sn s = (.ok (.ok .udp), s') ∧ UdpAt sn s' rd wr buf dst out := by
  obtain ⟨s', hr, hs⟩ := h.regRd SnReg.SR.addr
  refine ⟨s', ?_, hs⟩
  have hread : (simBus dbg).read SnReg.SR.addr sn.block 1 s = (.ok #v[0x22], s') := by
    rw [simBus_read]
    have : read SnReg.SR.addr sn.block 1 s = (.ok [0x22], s') := by
      unfold read
      rw [socket_block]
      refine (M.bind_ok hr).trans ?_
      rw [show regValue (s.sn sn).regs SnReg.SR.addr = (s.sn sn).regs.sr.code from rfl, h.sr]
      rfl
    rw [M.bind_ok this]; rfl
  unfold Bus.snSr
  rw [M.bind_ok hread]
  rfl

/-- Two bytes of a register that does not change on the receive side. -/
theorem UdpAt.read2 (h : UdpAt sn s rd wr buf dst out) (dbg : Bool) (addr : UInt16) (v : UInt16)
    (hv : ∀ s', UdpAt sn s' rd wr buf dst out → regValue (s'.sn sn).regs addr = (v >>> 8).toUInt8 ∧ regValue (s'.sn sn).regs (addr + 1) = v.toUInt8) :
    ∃ s', (simBus dbg).read addr sn.block 2 s = (.ok #v[(v >>> 8).toUInt8, v.toUInt8], s') ∧ UdpAt sn s' rd wr buf dst out := by
  obtain ⟨s1, hr1, h1⟩ := h.regRd addr
  obtain ⟨s2, hr2, h2⟩ := h1.regRd (addr + 1)
  refine ⟨s2, ?_, h2⟩
  rw [(hv s h).1] at hr1
  rw [(hv s1 h1).2] at hr2
  rw [simBus_read]
  have : read addr sn.block 2 s = (.ok [(v >>> 8).toUInt8, v.toUInt8], s2) := by
    unfold read
    rw [socket_block]
    refine (M.bind_ok hr1).trans ?_
    have e : readEach (fun addr => socketRegRd addr sn) 1 (addr + 1) s1 = (.ok [v.toUInt8], s2) := (M.bind_ok hr2).trans rfl
    rw [M.bind_ok e]
    rfl
  rw [M.bind_ok this]
  rfl

theorem UdpAt.snTxFsr (h : UdpAt sn s rd wr buf dst out) (dbg : Bool) :
    ∃ s', (simBus dbg).snTxFsr sn s = (.ok 0x0800, s') ∧ UdpAt sn s' rd wr buf dst out := by
  obtain ⟨s', hr, hs⟩ := h.read2 dbg SnReg.TX_FSR0.addr 0x0800 (fun s' h' => by
    constructor
    · show ((s'.sn sn).regs.txFsr >>> 8).toUInt8 = _; rw [h'.ok.fsr]
    · show (s'.sn sn).regs.txFsr.toUInt8 = _; rw [h'.ok.fsr])
  refine ⟨s', ?_, hs⟩
  unfold Bus.snTxFsr
  rw [M.bind_ok hr]
  rfl

theorem UdpAt.snTxWr (h : UdpAt sn s rd wr buf dst out) (dbg : Bool) :
    ∃ s', (simBus dbg).snTxWr sn s = (.ok wr, s') ∧ UdpAt sn s' rd wr buf dst out := by
  obtain ⟨s', hr, hs⟩ := h.read2 dbg SnReg.TX_WR0.addr wr (fun s' h' => by
    constructor
    · show ((s'.sn sn).regs.txWr >>> 8).toUInt8 = _; rw [h'.wr]
    · show (s'.sn sn).regs.txWr.toUInt8 = _; rw [h'.wr])
  refine ⟨s', ?_, hs⟩
  unfold Bus.snTxWr
  rw [M.bind_ok hr]
  show (Except.ok (be16 (wr >>> 8).toUInt8 wr.toUInt8), s') = _
  rw [show be16 (wr >>> 8).toUInt8 wr.toUInt8 = wr by
    apply UInt16.toNat_inj.mp
    rw [be16_toNat, hi_toNat, lo_toNat]
    omega]

theorem setLo_setHi (x v : UInt16) : setLo (setHi x (v >>> 8).toUInt8) v.toUInt8 = v := by
  apply UInt16.toNat_inj.mp
  rw [setLo_toNat, setHi_toNat, hi_toNat, lo_toNat]
  omega

theorem UdpAt.setSnTxWr (h : UdpAt sn s rd wr buf dst out) (dbg : Bool) (v : UInt16) :
    ∃ s', (simBus dbg).setSnTxWr sn v s = (.ok (), s') ∧ UdpAt sn s' rd v buf dst out := by
  have hrun : (simBus dbg).setSnTxWr sn v s
      = (.ok (), s.setSocket sn { s.sn sn with regs := { (s.sn sn).regs with txWr := v } }) := by
    show write dbg SnReg.TX_WR0.addr sn.block [(v >>> 8).toUInt8, v.toUInt8] s = _
    unfold write
    rw [socket_block]
    have e1 : socketRegWr dbg SnReg.TX_WR0.addr (v >>> 8).toUInt8 sn s
        = (.ok (), s.setSocket sn { s.sn sn with regs := { (s.sn sn).regs with txWr := setHi (s.sn sn).regs.txWr (v >>> 8).toUInt8 } }) := rfl
    refine (M.bind_ok e1).trans ?_
    have e2 : ∀ t : Sim, socketRegWr dbg SnReg.TX_WR1.addr v.toUInt8 sn t
        = (.ok (), t.setSocket sn { t.sn sn with regs := { (t.sn sn).regs with txWr := setLo (t.sn sn).regs.txWr v.toUInt8 } }) := fun _ => rfl
    refine (M.bind_ok (e2 _)).trans ?_
    rw [setSocket_same, setSocket_twice]
    simp only [setLo_setHi]
    rfl
  refine ⟨_, hrun, ?_⟩
  constructor
  · rw [setSocket_same]; exact h.inner
  · rw [setSocket_same]; exact h.sr
  · rw [setSocket_same]; exact h.rd
  · rw [setSocket_same]
  · rw [setSocket_same]; exact h.buf
  · rw [setSocket_same]; exact h.dst
  · rw [setSocket_same]; exact ⟨h.ok.tx, h.ok.rx, h.ok.fsr, h.ok.ir⟩
  · rw [setSocket_same]; exact ⟨h.rx.size, h.rx.rsr, h.rx.fits⟩
  · exact h.os
  · exact h.out

theorem UdpAt.setSnDest (h : UdpAt sn s rd wr buf dst out) (dbg : Bool) (v : SockAddr) :
    ∃ s', (simBus dbg).setSnDest sn v s = (.ok (), s') ∧ UdpAt sn s' rd wr buf v out := by
  have hrun : (simBus dbg).setSnDest sn v s
      = (.ok (), s.setSocket sn { s.sn sn with regs := { (s.sn sn).regs with dipr := v.ip, dport := v.port } }) := by
    show write dbg SnReg.DIPR0.addr sn.block [v.ip.a, v.ip.b, v.ip.c, v.ip.d, (v.port >>> 8).toUInt8, v.port.toUInt8] s = _
    unfold write
    rw [socket_block]
    have e0 : ∀ t : Sim, socketRegWr dbg SnReg.DIPR0.addr v.ip.a sn t
        = (.ok (), t.setSocket sn { t.sn sn with regs := { (t.sn sn).regs with dipr.a := v.ip.a } }) := fun _ => rfl
    have e1 : ∀ t : Sim, socketRegWr dbg SnReg.DIPR1.addr v.ip.b sn t
        = (.ok (), t.setSocket sn { t.sn sn with regs := { (t.sn sn).regs with dipr.b := v.ip.b } }) := fun _ => rfl
    have e2 : ∀ t : Sim, socketRegWr dbg SnReg.DIPR2.addr v.ip.c sn t
        = (.ok (), t.setSocket sn { t.sn sn with regs := { (t.sn sn).regs with dipr.c := v.ip.c } }) := fun _ => rfl
    have e3 : ∀ t : Sim, socketRegWr dbg SnReg.DIPR3.addr v.ip.d sn t
        = (.ok (), t.setSocket sn { t.sn sn with regs := { (t.sn sn).regs with dipr.d := v.ip.d } }) := fun _ => rfl
    have e4 : ∀ t : Sim, socketRegWr dbg SnReg.DPORT0.addr (v.port >>> 8).toUInt8 sn t
        = (.ok (), t.setSocket sn { t.sn sn with regs := { (t.sn sn).regs with dport := setHi (t.sn sn).regs.dport (v.port >>> 8).toUInt8 } }) := fun _ => rfl
    have e5 : ∀ t : Sim, socketRegWr dbg SnReg.DPORT1.addr v.port.toUInt8 sn t
        = (.ok (), t.setSocket sn { t.sn sn with regs := { (t.sn sn).regs with dport := setLo (t.sn sn).regs.dport v.port.toUInt8 } }) := fun _ => rfl
    refine (M.bind_ok (e0 _)).trans ((M.bind_ok (e1 _)).trans ((M.bind_ok (e2 _)).trans ((M.bind_ok (e3 _)).trans ((M.bind_ok (e4 _)).trans
      ((M.bind_ok (e5 _)).trans ?_)))))
    simp only [setSocket_same, setSocket_twice, setLo_setHi]
    rfl
  refine ⟨_, hrun, ?_⟩
  constructor
  · rw [setSocket_same]; exact h.inner
  · rw [setSocket_same]; exact h.sr
  · rw [setSocket_same]; exact h.rd
  · rw [setSocket_same]; exact h.wr
  · rw [setSocket_same]; exact h.buf
  · rw [setSocket_same]; rfl
  · rw [setSocket_same]; exact ⟨h.ok.tx, h.ok.rx, h.ok.fsr, h.ok.ir⟩
  · rw [setSocket_same]; exact ⟨h.rx.size, h.rx.rsr, h.rx.fits⟩
  · exact h.os
  · exact h.out

/-- Bytes written into a ring. -/
def txPut (b : Bytes) : UInt16 → Bytes → Bytes
  | _, [] => b
  | a, x :: xs => txPut (b.set (a.toNat % b.length) x) (a + 1) xs

theorem txPut_length (xs : Bytes) (b : Bytes) (a : UInt16) : (txPut b a xs).length = b.length := by
  induction xs generalizing b a with
  | nil => rfl
  | cons x xs ih => unfold txPut; rw [ih, List.length_set]

theorem ring_push (b : Bytes) (rd wr : UInt16) (x : UInt8) (hp : 0 < b.length) (hl : b.length ≤ 16384) (hd : b.length ∣ 65536)
    (hroom : distance rd wr < b.length) :
    ringBytes (b.set (wr.toNat % b.length) x) rd (wr + 1) = ringBytes b rd wr ++ [x] ∧ distance rd (wr + 1) = distance rd wr + 1 := by
  have hd1 : distance rd (wr + 1) = distance rd wr + 1 := by
    have := rd.toNat_lt
    have := wr.toNat_lt
    unfold distance at hroom ⊢
    rw [UInt16.toNat_add, show (1 : UInt16).toNat = 1 from rfl]
    omega
  refine ⟨?_, hd1⟩
  have hw := wr_pos rd wr
  unfold ringBytes
  rw [hd1, List.range_succ, List.map_append, List.length_set]
  congr 1
  · apply List.map_congr_left
    intro i hi
    rw [List.mem_range] at hi
    rw [List.getD_eq_getElem?_getD, List.getElem?_set_ne, ← List.getD_eq_getElem?_getD]
    rw [hw]
    exact (mod_ne _ _ _ i hi hroom hd).symm
  · rw [List.map_cons, List.map_nil, ← hw, List.getD_eq_getElem?_getD, List.getElem?_set_self (Nat.mod_lt _ hp)]
    rfl

theorem txPut_ring (xs : Bytes) (b : Bytes) (rd wr : UInt16) (hp : 0 < b.length) (hl : b.length ≤ 16384) (hd : b.length ∣ 65536)
    (hroom : distance rd wr + xs.length ≤ b.length) :
    ringBytes (txPut b wr xs) rd (wr + UInt16.ofNat xs.length) = ringBytes b rd wr ++ xs ∧
      distance rd (wr + UInt16.ofNat xs.length) = distance rd wr + xs.length := by
  induction xs generalizing b wr with
  | nil => simp [txPut]
  | cons x xs ih =>
    rw [List.length_cons] at hroom ⊢
    obtain ⟨h1, h2⟩ := ring_push b rd wr x hp hl hd (by omega)
    have hlen : (b.set (wr.toNat % b.length) x).length = b.length := List.length_set
    obtain ⟨h3, h4⟩ := ih (b.set (wr.toNat % b.length) x) (wr + 1) (by omega) (by omega) (by rw [hlen]; exact hd) (by omega)
    have e : wr + UInt16.ofNat (xs.length + 1) = wr + 1 + UInt16.ofNat xs.length := by
      apply UInt16.toNat_inj.mp
      simp only [UInt16.toNat_add, UInt16.toNat_ofNat', UInt16.toNat_ofNat]
      omega
    rw [e]
    refine ⟨?_, by omega⟩
    show ringBytes (txPut (b.set (wr.toNat % b.length) x) (wr + 1) xs) rd _ = _
    rw [h3, h1, List.append_assoc]
    rfl

theorem run_txPut (dbg : Bool) (xs : Bytes) (addr : UInt16) (s : Sim) (hlen : (s.sn sn).txBuf.length ≠ 0) :
    (simBus dbg).setSnTxBuf sn addr xs s = (.ok (), s.setSocket sn { s.sn sn with txBuf := txPut (s.sn sn).txBuf addr xs }) := by
  show write dbg addr sn.txBlock xs s = _
  unfold write
  rw [tx_block]
  show writeEach _ addr xs s = _
  induction xs generalizing addr s with
  | nil =>
    show (Except.ok (), s) = _
    rcases s with ⟨r, f, a, o⟩
    unfold Sim.setSocket
    simp only [txPut, Prod.mk.injEq, Sim.mk.injEq, true_and, and_true]
    funext j
    by_cases e : j = sn
    · subst e; simp
    · simp [e]
  | cons x xs ih =>
    have e : (getSocket sn >>= fun k => bufWr k.txBuf addr x >>= fun b => modSocket sn fun k => { k with txBuf := b }) s
        = (.ok (), s.setSocket sn { s.sn sn with txBuf := (s.sn sn).txBuf.set (addr.toNat % (s.sn sn).txBuf.length) x }) := by
      rw [M.bind_ok (getSocket_run sn s)]
      unfold bufWr
      rw [if_neg hlen]
      rfl
    refine (M.bind_ok e).trans ?_
    rw [ih _ _ (by rw [setSocket_same, List.length_set]; exact hlen), setSocket_same, setSocket_twice]
    rfl

theorem UdpAt.setSnTxBuf (h : UdpAt sn s rd wr buf dst out) (dbg : Bool) (xs : Bytes) (addr : UInt16) (hlen : buf.length ≠ 0) :
    ∃ s', (simBus dbg).setSnTxBuf sn addr xs s = (.ok (), s') ∧ UdpAt sn s' rd wr (txPut buf addr xs) dst out := by
  refine ⟨_, run_txPut dbg xs addr s (by rw [h.buf]; exact hlen), ?_⟩
  constructor
  · rw [setSocket_same]; exact h.inner
  · rw [setSocket_same]; exact h.sr
  · rw [setSocket_same]; exact h.rd
  · rw [setSocket_same]; exact h.wr
  · rw [setSocket_same, h.buf]
  · rw [setSocket_same]; exact h.dst
  · rw [setSocket_same]; exact ⟨by rw [txPut_length]; exact h.ok.tx, h.ok.rx, h.ok.fsr, h.ok.ir⟩
  · rw [setSocket_same]; exact ⟨h.rx.size, h.rx.rsr, h.rx.fits⟩
  · exact h.os
  · exact h.out

/-- The driver sends a datagram: what the operating system gets. -/
theorem UdpAt.sendTo (p : UInt16) (h : UdpAt sn s p p buf dst out) (dbg : Bool) (data : Bytes) (addr : SockAddr) (hlen : buf.length ≠ 0)
    (h0 : data ≠ []) (hfree : data.length ≤ 2048) (hfit : data.length ≤ buf.length)
    (sent : Bytes) (hs : sent = if p.toNat + data.length < 65536 then data else data.eraseIdx (65535 - p.toNat))
    (h2 : dbg = false ∨ 2 ≤ data.length ∨ p.toNat + data.length < 65536) :
    ∃ s', udpSendTo dbg (simBus dbg) sn data addr s = (.ok (UInt16.ofNat data.length), s') ∧ s'.out = out ++ [⟨sn, addr, sent⟩] ∧
      (s'.sn sn).regs.txRd = (s'.sn sn).regs.txWr := by
  have hsz : 0 < buf.length ∧ buf.length ≤ 16384 ∧ buf.length ∣ 65536 := by
    have := h.ok.tx
    rw [h.buf] at this
    rw [this] at hlen ⊢
    revert hlen
    cases (s.sn sn).regs.txbufSize <;> decide
  have hpos : 0 < data.length := List.length_pos_iff.mpr h0
  obtain ⟨s1, e1, h1⟩ := h.setSnDest dbg addr
  have hdbg : ∃ s2, debugAssert dbg (srIsUdp (simBus dbg) sn) s1 = (.ok (), s2) ∧ UdpAt sn s2 p p buf addr out := by
    unfold debugAssert srIsUdp
    cases dbg
    · exact ⟨s1, rfl, h1⟩
    · obtain ⟨s2, e2, hh2⟩ := h1.snSr true
      refine ⟨s2, ?_, hh2⟩
      simp only [if_true]
      rw [bind_assoc, M.bind_ok e2]
      rfl
  obtain ⟨s2, e2, hh2⟩ := hdbg
  obtain ⟨s3, e3, h3⟩ := hh2.snTxFsr dbg
  obtain ⟨s4, e4, h4⟩ := h3.snTxWr dbg
  obtain ⟨s5, e5, h5⟩ := h4.setSnTxBuf dbg data p hlen
  obtain ⟨s6, e6, h6⟩ := h5.setSnTxWr dbg (p + UInt16.ofNat data.length)
  have hn : (UInt16.ofNat data.length).toNat = data.length := by rw [UInt16.toNat_ofNat']; omega
  obtain ⟨hring, hdist⟩ := txPut_ring data buf p p hsz.1 hsz.2.1 hsz.2.2 (by simp only [distance]; omega)
  have hself : distance p p = 0 := by unfold distance; omega
  rw [hself, Nat.zero_add] at hdist
  have hempty : ringBytes buf p p = [] := by unfold ringBytes; rw [hself]; rfl
  rw [hempty, List.nil_append] at hring
  have hp := p.toNat_lt
  have hw : (p + UInt16.ofNat data.length).toNat = (p.toNat + data.length) % 65536 := by rw [UInt16.toNat_add, hn]
  have hne : (s6.sn sn).regs.txRd ≠ (s6.sn sn).regs.txWr := by
    rw [h6.rd, h6.wr]
    intro e
    have := congrArg UInt16.toNat e
    rw [hw] at this
    omega
  have hbytes : sendBytes dbg (s6.sn sn) = some sent := by
    have hbl : (s6.sn sn).txBuf.length = buf.length := by rw [h6.buf, txPut_length]
    by_cases hc : p.toNat + data.length < 65536
    · rw [if_pos hc] at hs
      have := sendBytes_ordered dbg (s6.sn sn) h6.ok hne (by rw [h6.rd, h6.wr, hw]; omega) (by rw [h6.rd, h6.wr, hbl, hdist]; exact hfit)
      rw [this, h6.rd, h6.wr, h6.buf, hring, hs]
    · rw [if_neg hc] at hs
      have := sendBytes_wrapped dbg (s6.sn sn) h6.ok (by rw [h6.rd, h6.wr, hw]; omega) (by rw [h6.rd, h6.wr, hbl, hdist]; exact hfit)
        (by rw [h6.rd, h6.wr, hdist]; rcases h2 with h2 | h2 | h2
            · exact .inl h2
            · exact .inr h2
            · exact absurd h2 hc)
      rw [this, h6.rd, h6.wr, h6.buf, hring, hs]
  obtain ⟨s7, e7, ho, -, hk, -, -⟩ := send_run dbg sn s6 sent hbytes hne (.inl h6.inner) h6.os
  refine ⟨s7, ?_, ?_, ?_⟩
  · have hmin : min16 (lenU16 data.length) 0x0800 = UInt16.ofNat data.length := by
      apply UInt16.toNat_inj.mp
      rw [min16_toNat, lenU16_toNat, hn, show (0x0800 : UInt16).toNat = 2048 from rfl]
      omega
    have hnz : UInt16.ofNat data.length ≠ 0 := by
      intro e
      have := congrArg UInt16.toNat e
      rw [hn, show (0 : UInt16).toNat = 0 from rfl] at this
      omega
    unfold udpSendTo udpSend
    rw [M.bind_ok e1, M.bind_ok e2]
    dsimp only
    rw [M.bind_ok e3, hmin, if_pos hnz, M.bind_ok e4, hn, List.take_length, M.bind_ok e5, M.bind_ok e6, M.bind_ok e7]
    rfl
  · rw [ho, h6.out, h6.dst]
  · rw [hk]

end Verif.Sim

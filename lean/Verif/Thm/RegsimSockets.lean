import Verif.Proof.RegsimUdp
import Verif.Thm.Regsim
/-!
# The register simulator: sockets
-/
namespace Verif.Thm
open Verif.Sim Verif.Hl

/-- A state of the simulator, and a way to it. -/
theorem Regsim.used_ok (rd wr : UInt16) : SocketOk ((Regsim.used rd wr).sn .sn2) := by
  constructor
  · show (((List.replicate 2048 (0 : UInt8)).set 2047 0xAA).set 0 0xBB |>.set 2046 0xCC).length = 2048
    simp only [List.length_set, List.length_replicate]
  · exact List.length_replicate
  · rfl
  · show (0 : Nat) < 16
    decide

/-- SEND gives the operating system exactly the bytes between the two transmit pointers, addressed to the destination in the registers, and moves
the read pointer: while the pointers have not wrapped, for every simulator reached by any accesses. -/
theorem C61_send_partial (dbg : Bool) (s : Sim) (hr : Reached dbg s) (sn : Sn)
    (hopen : (s.sn sn).inner = some .udp ∨ (s.sn sn).inner = some .tcpStream ∨ (s.sn sn).inner = some .tcpListener ∧ (s.sn sn).client = true)
    (hos : ∀ kind, Answer.fail kind ∉ s.answers) (hne : (s.sn sn).regs.txRd ≠ (s.sn sn).regs.txWr)
    (hfit : distance (s.sn sn).regs.txRd (s.sn sn).regs.txWr ≤ (s.sn sn).txBuf.length)
    (hle : (s.sn sn).regs.txRd.toNat ≤ (s.sn sn).regs.txWr.toNat) :
    ∃ s', (simBus dbg).setSnCr sn .send s = (.ok (), s') ∧
      s'.out = s.out ++ [⟨sn, (s.sn sn).regs.dest, ringBytes (s.sn sn).txBuf (s.sn sn).regs.txRd (s.sn sn).regs.txWr⟩] ∧
      s'.regs = s.regs ∧ s'.sn sn = { s.sn sn with regs := { (s.sn sn).regs with txRd := (s.sn sn).regs.txWr } } ∧
      ∀ j, j ≠ sn → s'.sn j = s.sn j := by
  obtain ⟨s', h1, h2, h3, h4, h5, -⟩ := send_run dbg sn s _ (sendBytes_ordered dbg (s.sn sn) (hr.inv sn) hne hle hfit) hne hopen hos
  exact ⟨s', h1, h2, h3, h4, h5⟩

/-- After the pointers have wrapped, the byte at the end of the address range is missing. -/
theorem C61_wrapped_send_drops_a_byte (dbg : Bool) (s : Sim) (hr : Reached dbg s) (sn : Sn)
    (hopen : (s.sn sn).inner = some .udp ∨ (s.sn sn).inner = some .tcpStream ∨ (s.sn sn).inner = some .tcpListener ∧ (s.sn sn).client = true)
    (hos : ∀ kind, Answer.fail kind ∉ s.answers)
    (hfit : distance (s.sn sn).regs.txRd (s.sn sn).regs.txWr ≤ (s.sn sn).txBuf.length)
    (hlt : (s.sn sn).regs.txWr.toNat < (s.sn sn).regs.txRd.toNat) (h2 : 2 ≤ distance (s.sn sn).regs.txRd (s.sn sn).regs.txWr) :
    ∃ s' bytes, (simBus dbg).setSnCr sn .send s = (.ok (), s') ∧ s'.out = s.out ++ [⟨sn, (s.sn sn).regs.dest, bytes⟩] ∧
      bytes = (ringBytes (s.sn sn).txBuf (s.sn sn).regs.txRd (s.sn sn).regs.txWr).eraseIdx (65535 - (s.sn sn).regs.txRd.toNat) ∧
      bytes.length + 1 = distance (s.sn sn).regs.txRd (s.sn sn).regs.txWr := by
  have hne : (s.sn sn).regs.txRd ≠ (s.sn sn).regs.txWr := fun e => by rw [e] at hlt; omega
  have hd := distance_gt _ _ hlt
  have := (s.sn sn).regs.txRd.toNat_lt
  obtain ⟨s', h1, h3, -, -, -, -⟩ := send_run dbg sn s _ (sendBytes_wrapped dbg (s.sn sn) (hr.inv sn) hlt hfit (.inr h2)) hne hopen hos
  refine ⟨s', _, h1, h3, rfl, ?_⟩
  rw [List.length_eraseIdx, ringBytes_length, if_pos (by omega)]
  omega

/-- The writes with which the driver opens a UDP socket, moves its pointers and queues a byte. -/
def Regsim.script : List (UInt16 × UInt8 × Bytes) :=
  [(SnReg.MR.addr, Sn.sn2.block, [2]), (SnReg.CR.addr, Sn.sn2.block, [1]), (0, Sn.sn2.txBlock, [0xBB, 0xCC]), (SnReg.TX_WR0.addr, Sn.sn2.block, [0, 2])]

def Regsim.runScript (s : Sim) (l : List (UInt16 × UInt8 × Bytes)) : Sim := l.foldl (fun s w => ((simBus true).write w.1 w.2.1 w.2.2 s).2) s

theorem Regsim.runScript_reached (l : List (UInt16 × UInt8 × Bytes)) (s : Sim) (h : Reached true s) : Reached true (Regsim.runScript s l) := by
  induction l generalizing s with
  | nil => exact h
  | cons w l ih => exact ih _ (.write _ _ _ h)

/-- Such a state is reached from the start. -/
example : let s := Regsim.runScript ⟨.reset, fun _ => .default, [], []⟩ Regsim.script
    Reached true s ∧ (s.sn .sn2).inner = some .udp ∧ (s.sn .sn2).regs.txRd ≠ (s.sn .sn2).regs.txWr ∧
    ringBytes (s.sn .sn2).txBuf (s.sn .sn2).regs.txRd (s.sn .sn2).regs.txWr = [0xBB, 0xCC] ∧
    ((simBus true).setSnCr .sn2 .send s).2.out = [⟨.sn2, ⟨.unspecified, 0⟩, [0xBB, 0xCC]⟩] :=
  ⟨Regsim.runScript_reached _ _ (.start []), by decide +kernel⟩

/-- A failure of the operating system is reported, and nothing is taken from the buffer. -/
theorem C61_send_failure (dbg : Bool) (s : Sim) (hr : Reached dbg s) (sn : Sn)
    (hopen : (s.sn sn).inner = some .udp ∨ (s.sn sn).inner = some .tcpStream ∨ (s.sn sn).inner = some .tcpListener ∧ (s.sn sn).client = true)
    (kind : Nat) (rest : List Answer) (hos : s.answers = .fail kind :: rest) (hne : (s.sn sn).regs.txRd ≠ (s.sn sn).regs.txWr)
    (hfit : distance (s.sn sn).regs.txRd (s.sn sn).regs.txWr ≤ (s.sn sn).txBuf.length)
    (hle : (s.sn sn).regs.txRd.toNat ≤ (s.sn sn).regs.txWr.toNat) :
    (simBus dbg).setSnCr sn .send s = (.error (.bus kind), { s with answers := rest }) := by
  have hask : askUnit s = (.error (.bus kind), { s with answers := rest }) := by
    have : ask s = (.ok (.fail kind), { s with answers := rest }) := by unfold ask; rw [hos]
    unfold askUnit
    rw [M.bind_ok this]
    rfl
  rw [run_setSnCr]
  show socketCmdSend dbg sn s = _
  unfold socketCmdSend
  rw [M.bind_ok (getSocket_run sn s), if_neg (fun e => hne e.symm)]
  simp only [sendBytes_ordered dbg (s.sn sn) (hr.inv sn) hne hle hfit]
  rcases hopen with hi | hi | ⟨hi, hc⟩
  · simp only [hi, bind_assoc]; rw [M.bind_error hask]
  · simp only [hi, bind_assoc]; rw [M.bind_error hask]
  · simp only [hi, if_pos hc, bind_assoc]; rw [M.bind_error hask]

/-- A simulator with a UDP socket opened by the driver. -/
structure UdpSocket (s : Sim) (sn : Sn) : Prop where
  open_ : (s.sn sn).inner = some .udp ∧ (s.sn sn).regs.sr = .udp
  tx : (s.sn sn).regs.txRd = (s.sn sn).regs.txWr
  txSize : (s.sn sn).txBuf.length ≠ 0
  rx : RxFine (s.sn sn)
  os : ∀ kind, Answer.fail kind ∉ s.answers

/-- `udp_send_to` on the simulator: the operating system gets exactly the datagram, whatever arrives meanwhile, until the pointers wrap. -/
theorem C61_udp_send_to_partial (dbg : Bool) (s : Sim) (hr : Reached dbg s) (sn : Sn) (h : UdpSocket s sn) (data : Bytes) (addr : SockAddr)
    (h0 : data ≠ []) (hfree : data.length ≤ 2048) (hfit : data.length ≤ (s.sn sn).txBuf.length)
    (hwrap : (s.sn sn).regs.txWr.toNat + data.length < 65536) :
    ∃ s', udpSendTo dbg (simBus dbg) sn data addr s = (.ok (UInt16.ofNat data.length), s') ∧ s'.out = s.out ++ [⟨sn, addr, data⟩] ∧
      (s'.sn sn).regs.txRd = (s'.sn sn).regs.txWr := by
  have hat : UdpAt sn s (s.sn sn).regs.txWr (s.sn sn).regs.txWr (s.sn sn).txBuf (s.sn sn).regs.dest s.out :=
    ⟨h.open_.1, h.open_.2, h.tx, rfl, rfl, rfl, hr.inv sn, h.rx, h.os, rfl⟩
  exact hat.sendTo _ dbg data addr h.txSize h0 hfree hfit data (by rw [if_pos hwrap]) (.inr (.inr hwrap))

/-- A datagram across the end of the pointers loses a byte, although the driver reports that all were sent. -/
theorem C61_udp_send_to_drops_a_byte (dbg : Bool) (s : Sim) (hr : Reached dbg s) (sn : Sn) (h : UdpSocket s sn) (data : Bytes) (addr : SockAddr)
    (h0 : 2 ≤ data.length) (hfree : data.length ≤ 2048) (hfit : data.length ≤ (s.sn sn).txBuf.length)
    (hwrap : 65536 ≤ (s.sn sn).regs.txWr.toNat + data.length) :
    ∃ s', udpSendTo dbg (simBus dbg) sn data addr s = (.ok (UInt16.ofNat data.length), s') ∧
      s'.out = s.out ++ [⟨sn, addr, data.eraseIdx (65535 - (s.sn sn).regs.txWr.toNat)⟩] ∧
      (data.eraseIdx (65535 - (s.sn sn).regs.txWr.toNat)).length + 1 = data.length := by
  have hat : UdpAt sn s (s.sn sn).regs.txWr (s.sn sn).regs.txWr (s.sn sn).txBuf (s.sn sn).regs.dest s.out :=
    ⟨h.open_.1, h.open_.2, h.tx, rfl, rfl, rfl, hr.inv sn, h.rx, h.os, rfl⟩
  obtain ⟨s', e, ho, -⟩ := hat.sendTo _ dbg data addr h.txSize (by intro e; rw [e] at h0; simp at h0) hfree hfit _ rfl (.inr (.inl h0))
  refine ⟨s', e, ?_, ?_⟩
  · rw [ho, if_neg (by omega)]
  · have := (s.sn sn).regs.txWr.toNat_lt
    rw [List.length_eraseIdx, if_pos (by omega)]
    omega

/-- Such a socket, just opened, and one whose pointers are near the end of their range. -/
example : UdpSocket (Regsim.used 0 0) .sn2 := by
  refine ⟨⟨rfl, rfl⟩, rfl, ?_, ⟨?_, rfl, ?_⟩, fun _ h => by cases h⟩
  · rw [(Regsim.used_ok 0 0).tx]; decide
  · rw [(Regsim.used_ok 0 0).rx]; decide
  · rw [(Regsim.used_ok 0 0).rx]; decide
example : let s := Regsim.runScript ⟨.reset, fun _ => .default, [], []⟩ [(SnReg.MR.addr, Sn.sn2.block, [2]), (SnReg.CR.addr, Sn.sn2.block, [1])]
    Reached true s ∧ (s.sn .sn2).inner = some .udp ∧ (s.sn .sn2).regs.sr = .udp ∧ (s.sn .sn2).regs.rxRsr = 0 :=
  ⟨Regsim.runScript_reached _ _ (.start []), by decide +kernel⟩

/-- After RECV the received size is the number of bytes between the pointers, while they have not wrapped. -/
theorem C62_recv_partial (dbg : Bool) (s : Sim) (sn : Sn) (hle : (s.sn sn).regs.rxRd.toNat ≤ (s.sn sn).regs.rxWr.toNat) :
    ∃ s', (simBus dbg).setSnCr sn .recv s = (.ok (), s') ∧
      (s'.sn sn).regs.rxRsr.toNat = distance (s.sn sn).regs.rxRd (s.sn sn).regs.rxWr ∧
      s'.sn sn = { s.sn sn with regs := { (s.sn sn).regs with rxRsr := (s'.sn sn).regs.rxRsr } } ∧
      (∀ j, j ≠ sn → s'.sn j = s.sn j) ∧ s'.regs = s.regs ∧ s'.out = s.out := by
  refine ⟨s.setSocket sn { s.sn sn with regs := { (s.sn sn).regs with rxRsr := (s.sn sn).regs.rxWr - (s.sn sn).regs.rxRd } }, ?_, ?_, ?_,
    fun j hj => setSocket_other _ _ _ _ hj, rfl, rfl⟩
  · rw [run_setSnCr]
    show socketCmdRecv dbg sn s = _
    unfold socketCmdRecv
    rw [M.bind_ok (getSocket_run sn s), if_pos (show (s.sn sn).regs.rxWr ≥ (s.sn sn).regs.rxRd from hle)]
    rfl
  · rw [setSocket_same]
    show ((s.sn sn).regs.rxWr - (s.sn sn).regs.rxRd).toNat = _
    rw [u16_sub_toNat]
    unfold distance
    rfl
  · rw [setSocket_same]

/-- After the pointers have wrapped, RECV is wrong for every number of bytes: it ends a program compiled with overflow checks, and otherwise stores the
free space instead of the number of bytes. -/
theorem C62_wrapped_recv (s : Sim) (hr : ∃ dbg, Reached dbg s) (sn : Sn) (hlt : (s.sn sn).regs.rxWr.toNat < (s.sn sn).regs.rxRd.toNat)
    (hfit : distance (s.sn sn).regs.rxRd (s.sn sn).regs.rxWr ≤ (s.sn sn).rxBuf.length) :
    (simBus true).setSnCr sn .recv s = (.error .panic, s) ∧
    ∃ s', (simBus false).setSnCr sn .recv s = (.ok (), s') ∧
      (s'.sn sn).regs.rxRsr.toNat = (s.sn sn).rxBuf.length - distance (s.sn sn).regs.rxRd (s.sn sn).regs.rxWr := by
  obtain ⟨dbg, hr⟩ := hr
  have hrx := (hr.inv sn).rx
  have hd := distance_gt _ _ hlt
  have hl := (s.sn sn).regs.rxRd.toNat_lt
  have hbs : (s.sn sn).regs.rxbufSize.sizeInBytes ≤ 16384 := by cases (s.sn sn).regs.rxbufSize <;> decide
  have hsz : (UInt16.ofNat (s.sn sn).regs.rxbufSize.sizeInBytes).toNat = (s.sn sn).rxBuf.length := by
    rw [UInt16.toNat_ofNat']; omega
  have hge : ¬ (s.sn sn).regs.rxWr ≥ (s.sn sn).regs.rxRd := fun e => by
    have : (s.sn sn).regs.rxRd.toNat ≤ (s.sn sn).regs.rxWr.toNat := e
    omega
  constructor
  · rw [run_setSnCr]
    show socketCmdRecv true sn s = _
    unfold socketCmdRecv
    rw [M.bind_ok (getSocket_run sn s), if_neg hge]
    rw [if_pos]
    · rfl
    · refine ⟨rfl, ?_⟩
      by_cases hw : UInt16.ofNat (s.sn sn).regs.rxbufSize.sizeInBytes < (s.sn sn).regs.rxWr
      · exact .inl hw
      · right
        have hw : ¬ (UInt16.ofNat (s.sn sn).regs.rxbufSize.sizeInBytes).toNat < (s.sn sn).regs.rxWr.toNat := hw
        rw [u16_sub_toNat]
        omega
  · refine ⟨s.setSocket sn { s.sn sn with regs := { (s.sn sn).regs with
        rxRsr := UInt16.ofNat (s.sn sn).regs.rxbufSize.sizeInBytes - (s.sn sn).regs.rxWr + (s.sn sn).regs.rxRd } }, ?_, ?_⟩
    · rw [run_setSnCr]
      show socketCmdRecv false sn s = _
      unfold socketCmdRecv
      rw [M.bind_ok (getSocket_run sn s), if_neg hge]
      rw [if_neg (fun e => by cases e.1)]
      rfl
    · rw [setSocket_same]
      show (UInt16.ofNat (s.sn sn).regs.rxbufSize.sizeInBytes - (s.sn sn).regs.rxWr + (s.sn sn).regs.rxRd).toNat = _
      rw [UInt16.toNat_add, u16_sub_toNat, hsz]
      omega

/-- Three bytes are in the buffer after the wrap; the register says 2045. -/
example : let s := (⟨.reset, fun _ => { Socket.default with regs := { SocketRegs.reset with rxRd := 65534, rxWr := 1 } }, [], []⟩ : Sim)
    distance (s.sn .sn1).regs.rxRd (s.sn .sn1).regs.rxWr = 3 ∧ (((simBus false).setSnCr .sn1 .recv s).2.sn .sn1).regs.rxRsr = 2045 := by decide +kernel

/-- OPEN starts the pointers at zero; the status is that of the protocol, if the operating system agrees. -/
theorem C85_open_partial (dbg : Bool) (s : Sim) (sn : Sn) (hos : ∀ kind, Answer.fail kind ∉ s.answers)
    (hp : (⟨(s.sn sn).regs.mr⟩ : SocketMode).protocol = .ok .tcp ∨ (⟨(s.sn sn).regs.mr⟩ : SocketMode).protocol = .ok .udp) :
    ∃ s', (simBus dbg).setSnCr sn .open s = (.ok (), s') ∧
      (s'.sn sn).regs.txRd = 0 ∧ (s'.sn sn).regs.txWr = 0 ∧ (s'.sn sn).regs.rxRd = 0 ∧ (s'.sn sn).regs.rxWr = 0 ∧
      ((⟨(s.sn sn).regs.mr⟩ : SocketMode).protocol = .ok .tcp → (s'.sn sn).regs.sr = .init ∧ (s'.sn sn).inner = none) ∧
      ((⟨(s.sn sn).regs.mr⟩ : SocketMode).protocol = .ok .udp → (s'.sn sn).regs.sr = .udp ∧ (s'.sn sn).inner = some .udp) ∧
      (∀ j, j ≠ sn → s'.sn j = s.sn j) ∧ s'.out = s.out ∧
      (s'.sn sn).regs.rxRsr = (s.sn sn).regs.rxRsr := by
  rw [run_setSnCr]
  show ∃ s', socketCmdOpen sn s = (.ok (), s') ∧ _
  unfold socketCmdOpen
  have e1 := modRegs_run sn (fun r => { r with rxWr := 0, rxRd := 0, txRd := 0, txWr := 0 }) s
  rw [M.bind_ok e1, M.bind_ok (getSocket_run sn _), setSocket_same]
  rcases hp with hp | hp
  · have hp' : (⟨({ (s.sn sn).regs with rxWr := 0, rxRd := 0, txRd := 0, txWr := 0 } : SocketRegs).mr⟩ : SocketMode).protocol = .ok .tcp := hp
    simp only [hp']
    have hrun : ∀ t : Sim, (modSocket sn (fun k => { k with inner := none }) >>= fun _ => simSetSnSr sn .init) t
        = (.ok (), t.setSocket sn { t.sn sn with inner := none, regs := { (t.sn sn).regs with sr := .init } }) := by
      intro t
      rw [M.bind_ok (modSocket_run sn _ t)]
      unfold simSetSnSr
      rw [modRegs_run, setSocket_same, setSocket_twice]
    rw [hrun, setSocket_same, setSocket_twice]
    refine ⟨_, rfl, ?_⟩
    rw [setSocket_same]
    exact ⟨rfl, rfl, rfl, rfl, fun _ => ⟨rfl, rfl⟩, fun e => (by first | cases e | (rw [hp] at e; cases e)), fun j hj => setSocket_other _ _ _ _ hj, rfl, rfl⟩
  · have hp' : (⟨({ (s.sn sn).regs with rxWr := 0, rxRd := 0, txRd := 0, txWr := 0 } : SocketRegs).mr⟩ : SocketMode).protocol = .ok .udp := hp
    simp only [hp']
    have hrun : ∀ t : Sim, OsOk t.answers → (askOk >>= fun bound => if bound = true then askUnit >>= fun _ => askUnit >>= fun _ =>
          modSocket sn (fun k => { k with inner := some .udp }) >>= fun _ => simSetSnSr sn .udp else simSetSnSr sn .closed) t
        = (.ok (), { t with answers := ((t.answers.drop 1).drop 1).drop 1 }.setSocket sn
            { t.sn sn with inner := some .udp, regs := { (t.sn sn).regs with sr := .udp } }) := by
      intro t ht
      rw [M.bind_ok (askOk_run t ht), if_pos rfl, M.bind_ok (askUnit_run _ ht.drop), M.bind_ok (askUnit_run _ ht.drop.drop), M.bind_ok (modSocket_run sn _ _)]
      unfold simSetSnSr
      rw [modRegs_run, setSocket_same, setSocket_twice]
    rw [hrun _ (show OsOk (Sim.answers (s.setSocket sn _)) from hos), setSocket_same]
    refine ⟨_, rfl, ?_⟩
    rw [setSocket_same]
    refine ⟨rfl, rfl, rfl, rfl, fun e => (by first | cases e | (rw [hp] at e; cases e)), fun _ => ⟨rfl, rfl⟩, fun j hj => ?_, rfl, rfl⟩
    rw [setSocket_other _ _ _ _ hj]
    exact setSocket_other _ _ _ _ hj

/-- The received size is not reset: bytes of the previous connection are announced again. -/
theorem C85_open_keeps_stale_bytes (dbg : Bool) (s : Sim) (sn : Sn) (hos : ∀ kind, Answer.fail kind ∉ s.answers)
    (hp : (⟨(s.sn sn).regs.mr⟩ : SocketMode).protocol = .ok .tcp ∨ (⟨(s.sn sn).regs.mr⟩ : SocketMode).protocol = .ok .udp)
    (hstale : (s.sn sn).regs.rxRsr ≠ 0) :
    ∃ s', (simBus dbg).setSnCr sn .open s = (.ok (), s') ∧ distance (s'.sn sn).regs.rxRd (s'.sn sn).regs.rxWr = 0 ∧ (s'.sn sn).regs.rxRsr ≠ 0 := by
  obtain ⟨s', h, -, -, h1, h2, -, -, -, -, h3⟩ := C85_open_partial dbg s sn hos hp
  exact ⟨s', h, by rw [h1, h2]; decide, by rw [h3]; exact hstale⟩

/-- A socket is opened while a datagram of the previous one is unread. -/
example : let s := (Regsim.runScript ⟨.reset, fun _ => .default, [.done, .done, .done, .data ⟨⟨10, 0, 0, 1⟩, 53⟩ [1, 2]], []⟩
      [(SnReg.MR.addr, Sn.sn2.block, [2]), (SnReg.CR.addr, Sn.sn2.block, [1])])
    let t := ((simBus true).read SnReg.SR.addr Sn.sn2.block 1 s).2
    Reached true t ∧ (t.sn .sn2).regs.rxRsr = 10 ∧ t.answers = [] ∧ (⟨(t.sn .sn2).regs.mr⟩ : SocketMode).protocol = .ok .udp :=
  ⟨.read _ _ _ (Regsim.runScript_reached _ _ (.start _)), by decide +kernel⟩

/-- The free size register never changes: it says 2048, whatever the size of the buffer and however many bytes are queued. -/
theorem C86_free_size_is_constant (dbg : Bool) (s : Sim) (hr : Reached dbg s) (sn : Sn) :
    peek s sn.block SnReg.TX_FSR0.addr = some 0x08 ∧ peek s sn.block SnReg.TX_FSR1.addr = some 0x00 := by
  have h := (hr.inv sn).fsr
  rw [peek_eq, peek_eq]
  simp only [cell, socket_block]
  refine ⟨congrArg some ?_, congrArg some ?_⟩
  · show ((s.sn sn).regs.txFsr >>> 8).toUInt8 = 8
    rw [h]; rfl
  · show (s.sn sn).regs.txFsr.toUInt8 = 0
    rw [h]; rfl

/-- So it is not the free size: here with a buffer of 1 KiB, and with two bytes queued in one of 2 KiB. -/
theorem C86_free_size_is_wrong :
    (∃ s, Reached true s ∧ (s.sn .sn2).txBuf.length = 1024 ∧ (s.sn .sn2).regs.txFsr.toNat = 2048) ∧
    (∃ s, Reached true s ∧ (s.sn .sn2).txBuf.length = 2048 ∧ distance (s.sn .sn2).regs.txRd (s.sn .sn2).regs.txWr = 2 ∧
      (s.sn .sn2).regs.txFsr.toNat = 2048) :=
  ⟨⟨Regsim.runScript ⟨.reset, fun _ => .default, [], []⟩ [(SnReg.TXBUF_SIZE.addr, Sn.sn2.block, [1])], Regsim.runScript_reached _ _ (.start _),
      by decide +kernel⟩,
    ⟨Regsim.runScript ⟨.reset, fun _ => .default, [], []⟩ Regsim.script, Regsim.runScript_reached _ _ (.start _), by decide +kernel⟩⟩

/-- It is right for an empty buffer of 2 KiB, the size after a reset. -/
theorem C86_free_size_partial (dbg : Bool) (s : Sim) (hr : Reached dbg s) (sn : Sn) (h2 : (s.sn sn).txBuf.length = 2048)
    (he : (s.sn sn).regs.txRd = (s.sn sn).regs.txWr) :
    (s.sn sn).regs.txFsr.toNat = (s.sn sn).txBuf.length - distance (s.sn sn).regs.txRd (s.sn sn).regs.txWr := by
  rw [(hr.inv sn).fsr, h2, he]
  unfold distance
  show 2048 = _
  omega

theorem Regsim.udpFrame_length (o : SockAddr) (data : Bytes) : (udpFrame o data).length = 8 + data.length := by
  unfold udpFrame Ipv4.octets toBe16
  simp only [List.length_append, List.length_cons, List.length_nil]

theorem Regsim.raised (x : UInt8) : (⟨x ||| SocketInterrupt.recvMask⟩ : SocketInterrupt).recvRaised = true :=
  forall_u8 (p := fun x => (⟨x ||| SocketInterrupt.recvMask⟩ : SocketInterrupt).recvRaised = true) (by decide +kernel) x

theorem Regsim.sir_raised (x m : UInt8) : (x ||| m) &&& m = m := by
  apply UInt8.eq_of_toBitVec_eq
  ext i hi
  simp only [UInt8.toBitVec_and, UInt8.toBitVec_or, BitVec.getElem_and, BitVec.getElem_or]
  cases m.toBitVec[i] <;> simp

/-- A read of one register of a socket, other than the first of the received size, first asks the operating system. -/
theorem Regsim.read_checks (dbg : Bool) (sn : Sn) (addr : UInt16) (ha : addr ≠ SnReg.RX_RSR0.addr) (s s' : Sim) (h : checkSocket sn s = (.ok (), s')) :
    ∃ v, (simBus dbg).read addr sn.block 1 s = (.ok v, s') := by
  have hne : SnReg.tryFrom addr ≠ .ok .RX_RSR0 := by
    intro e
    exact ha ((C06_SnReg.exact addr .RX_RSR0 e).symm)
  have hrd : socketRegRd addr sn s = (.ok (regValue (s.sn sn).regs addr), s') := by
    unfold socketRegRd
    rw [M.bind_ok (getSocket_run sn s)]
    simp only [if_pos hne]
    rw [M.bind_ok h]
    rfl
  refine ⟨#v[regValue (s.sn sn).regs addr], ?_⟩
  rw [simBus_read]
  have : Sim.read addr sn.block 1 s = (.ok [regValue (s.sn sn).regs addr], s') := by
    unfold Sim.read
    simp only [socket_block]
    unfold readEach
    rw [M.bind_ok hrd]
    rfl
  rw [M.bind_ok this]
  rfl

/-- A datagram that fits is queued whole, after those before it, with the origin and length in front, and the interrupt is raised.  It is fetched from the
operating system by the read of any register of the socket but the first of the received size. -/
theorem C87_datagram_partial (dbg : Bool) (s : Sim) (hr : Reached dbg s) (sn : Sn) (hu : (s.sn sn).inner = some .udp) (hrx : RxFine (s.sn sn))
    (addr : UInt16) (ha : addr ≠ SnReg.RX_RSR0.addr) (o : SockAddr) (data : Bytes) (rest : List Answer) (hos : s.answers = .data o data :: rest)
    (hfit : (unread (s.sn sn)).length + 8 + data.length ≤ (s.sn sn).rxBuf.length) :
    ∃ s' v, (simBus dbg).read addr sn.block 1 s = (.ok v, s') ∧ unread (s'.sn sn) = unread (s.sn sn) ++ udpFrame o data ∧ RxFine (s'.sn sn) ∧
      (s'.sn sn).regs.ir.recvRaised = true ∧ s'.regs.sir &&& sn.bitmask = sn.bitmask ∧ s'.answers = rest ∧ ∀ j, j ≠ sn → s'.sn j = s.sn j := by
  obtain ⟨b, w, r, hc, hf, -, hun⟩ := check_datagram sn s o data rest hos hu hrx (hr.inv sn).rx.symm
  obtain ⟨v, hv⟩ := Regsim.read_checks dbg sn addr ha s _ hc
  refine ⟨_, v, hv, ?_⟩
  have hs := setSocket_same s sn (arrived (s.sn sn) b w r)
  have hs' : ({ s.setSocket sn (arrived (s.sn sn) b w r) with regs.sir := s.regs.sir ||| sn.bitmask, answers := rest } : Sim).sn sn
      = arrived (s.sn sn) b w r := hs
  rw [hs', hun]
  refine ⟨?_, hf, Regsim.raised _, Regsim.sir_raised _ _, rfl, fun j hj => setSocket_other s sn j _ hj⟩
  rw [List.take_of_length_le (show data.length ≤ _ by omega), List.take_of_length_le (by rw [List.length_append, Regsim.udpFrame_length]; omega)]

/-- A datagram that does not fit is cut, although its header announces the length it had (or that of the buffer): whatever comes next is misread. -/
theorem C87_datagram_cut (dbg : Bool) (s : Sim) (hr : Reached dbg s) (sn : Sn) (hu : (s.sn sn).inner = some .udp) (hrx : RxFine (s.sn sn))
    (addr : UInt16) (ha : addr ≠ SnReg.RX_RSR0.addr) (o : SockAddr) (data : Bytes) (rest : List Answer) (hos : s.answers = .data o data :: rest)
    (hfit : (s.sn sn).rxBuf.length < (unread (s.sn sn)).length + 8 + data.length) :
    ∃ s' v kept, (simBus dbg).read addr sn.block 1 s = (.ok v, s') ∧ unread (s'.sn sn) = unread (s.sn sn) ++ kept ∧
      kept = (udpFrame o (data.take (s.sn sn).rxBuf.length)).take ((s.sn sn).rxBuf.length - (unread (s.sn sn)).length) ∧
      kept.length < 8 + min data.length (s.sn sn).rxBuf.length ∧ s'.answers = rest := by
  obtain ⟨b, w, r, hc, hf, -, hun⟩ := check_datagram sn s o data rest hos hu hrx (hr.inv sn).rx.symm
  obtain ⟨v, hv⟩ := Regsim.read_checks dbg sn addr ha s _ hc
  have hs' : ({ s.setSocket sn (arrived (s.sn sn) b w r) with regs.sir := s.regs.sir ||| sn.bitmask, answers := rest } : Sim).sn sn
      = arrived (s.sn sn) b w r := setSocket_same s sn (arrived (s.sn sn) b w r)
  have hl : (unread (s.sn sn)).length ≤ (s.sn sn).rxBuf.length := by
    unfold unread
    rw [ringBytes_length]
    exact hrx.fits
  have hp := hrx.pos
  refine ⟨_, v, _, hv, ?_, rfl, ?_, rfl⟩
  · rw [hs', hun, List.take_append, List.take_of_length_le hl]
  · rw [List.length_take, Regsim.udpFrame_length, List.length_take]
    omega

/-- Bytes of a connection that fit are queued in order, and the interrupt is raised. -/
theorem C87_stream_partial (dbg : Bool) (s : Sim) (hr : Reached dbg s) (sn : Sn)
    (hu : (s.sn sn).inner = some .tcpStream ∨ (s.sn sn).inner = some .tcpListener ∧ (s.sn sn).client = true) (hrx : RxFine (s.sn sn))
    (addr : UInt16) (ha : addr ≠ SnReg.RX_RSR0.addr) (o : SockAddr) (data : Bytes) (hne : data ≠ []) (rest : List Answer)
    (hos : s.answers = .data o data :: rest) (hfit : (unread (s.sn sn)).length + data.length ≤ (s.sn sn).rxBuf.length) :
    ∃ s' v, (simBus dbg).read addr sn.block 1 s = (.ok v, s') ∧ unread (s'.sn sn) = unread (s.sn sn) ++ data ∧ RxFine (s'.sn sn) ∧
      (s'.sn sn).regs.ir.recvRaised = true ∧ s'.regs.sir &&& sn.bitmask = sn.bitmask ∧ s'.answers = rest ∧ ∀ j, j ≠ sn → s'.sn j = s.sn j := by
  obtain ⟨b, w, r, hc, hf, -, hun⟩ := check_stream sn s o data hne rest hos hu hrx (hr.inv sn).rx.symm
  obtain ⟨v, hv⟩ := Regsim.read_checks dbg sn addr ha s _ hc
  refine ⟨_, v, hv, ?_⟩
  have hs' : ({ s.setSocket sn (arrived (s.sn sn) b w r) with regs.sir := s.regs.sir ||| sn.bitmask, answers := rest } : Sim).sn sn
      = arrived (s.sn sn) b w r := setSocket_same s sn (arrived (s.sn sn) b w r)
  rw [hs', hun]
  refine ⟨?_, hf, Regsim.raised _, Regsim.sir_raised _ _, rfl, fun j hj => setSocket_other s sn j _ hj⟩
  rw [List.take_of_length_le (by rw [List.length_append]; exact hfit)]

/-- Bytes of a connection that do not fit are lost: taken from the operating system, and not queued. -/
theorem C87_stream_bytes_lost (dbg : Bool) (s : Sim) (hr : Reached dbg s) (sn : Sn)
    (hu : (s.sn sn).inner = some .tcpStream ∨ (s.sn sn).inner = some .tcpListener ∧ (s.sn sn).client = true) (hrx : RxFine (s.sn sn))
    (addr : UInt16) (ha : addr ≠ SnReg.RX_RSR0.addr) (o : SockAddr) (data : Bytes) (hne : data ≠ []) (rest : List Answer)
    (hos : s.answers = .data o data :: rest) (hfit : (s.sn sn).rxBuf.length < (unread (s.sn sn)).length + data.length) :
    ∃ s' v kept, (simBus dbg).read addr sn.block 1 s = (.ok v, s') ∧ unread (s'.sn sn) = unread (s.sn sn) ++ kept ∧
      kept = data.take ((s.sn sn).rxBuf.length - (unread (s.sn sn)).length) ∧ kept.length < data.length ∧ s'.answers = rest := by
  obtain ⟨b, w, r, hc, hf, -, hun⟩ := check_stream sn s o data hne rest hos hu hrx (hr.inv sn).rx.symm
  obtain ⟨v, hv⟩ := Regsim.read_checks dbg sn addr ha s _ hc
  have hs' : ({ s.setSocket sn (arrived (s.sn sn) b w r) with regs.sir := s.regs.sir ||| sn.bitmask, answers := rest } : Sim).sn sn
      = arrived (s.sn sn) b w r := setSocket_same s sn (arrived (s.sn sn) b w r)
  have hl : (unread (s.sn sn)).length ≤ (s.sn sn).rxBuf.length := by
    unfold unread
    rw [ringBytes_length]
    exact hrx.fits
  refine ⟨_, v, _, hv, ?_, rfl, ?_, rfl⟩
  · rw [hs', hun, List.take_append, List.take_of_length_le hl]
  · rw [List.length_take]
    omega

/-- A datagram of two bytes arrives at a socket just opened; and the state is one the theorems speak of. -/
example : let s := (Regsim.runScript ⟨.reset, fun _ => .default, [.done, .done, .done, .data ⟨⟨10, 0, 0, 1⟩, 53⟩ [1, 2]], []⟩
      [(SnReg.MR.addr, Sn.sn2.block, [2]), (SnReg.CR.addr, Sn.sn2.block, [1])])
    Reached true s ∧ (s.sn .sn2).inner = some .udp ∧ s.answers = [.data ⟨⟨10, 0, 0, 1⟩, 53⟩ [1, 2]] ∧ unread (s.sn .sn2) = [] ∧
    (s.sn .sn2).rxBuf.length = 2048 ∧ (s.sn .sn2).regs.rxRsr.toNat = distance (s.sn .sn2).regs.rxRd (s.sn .sn2).regs.rxWr ∧
    unread (((simBus true).read SnReg.SR.addr Sn.sn2.block 1 s).2.sn .sn2) = [10, 0, 0, 1, 0, 53, 0, 2, 1, 2] :=
  ⟨Regsim.runScript_reached _ _ (.start _), by decide +kernel⟩

/-- A datagram of two bytes when eight are free: only the header, which announces two bytes, is queued. -/
example : let s := (⟨.reset, fun _ => { Socket.default with inner := some .udp, regs := { SocketRegs.reset with rxWr := 2040, rxRsr := 2040 } },
      [.data ⟨⟨10, 0, 0, 1⟩, 53⟩ [1, 2]], []⟩ : Sim)
    let t := ((simBus true).read SnReg.SR.addr Sn.sn2.block 1 s).2
    (t.sn .sn2).regs.rxRsr = 2048 ∧ (t.sn .sn2).rxBuf.drop 2040 = [10, 0, 0, 1, 0, 53, 0, 2] := by decide +kernel

end Verif.Thm

import Verif.Proof.RegsimState
import Verif.Thm.RegsimSockets
/-!
# The register simulator: connections
-/
namespace Verif.Thm
open Verif.Sim Verif.Hl

/-- A socket has a new status and has raised interrupts, and nothing else that can be read or was sent has changed. -/
def Regsim.Became (s s' : Sim) (sn : Sn) (status : SocketStatus) (interrupts : UInt8) : Prop :=
  (s'.sn sn).regs = { (s.sn sn).regs with sr := status, ir := ⟨(s.sn sn).regs.ir.raw ||| interrupts⟩ } ∧
  (s'.sn sn).txBuf = (s.sn sn).txBuf ∧ (s'.sn sn).rxBuf = (s.sn sn).rxBuf ∧ (∀ j, j ≠ sn → s'.sn j = s.sn j) ∧ s'.out = s.out ∧
  s'.regs = if interrupts = 0 then s.regs else { s.regs with sir := s.regs.sir ||| sn.bitmask }

/-- The interrupts of a socket (W5500 datasheet, `Sn_IR`). -/
def Regsim.CON : UInt8 := 0x01
def Regsim.DISCON : UInt8 := 0x02
def Regsim.TIMEOUT : UInt8 := 0x08

/-- CONNECT, when the operating system connects: the socket is connected and says so. -/
theorem C102_connect_partial (dbg : Bool) (s : Sim) (sn : Sn) (hi : (s.sn sn).regs.sr = .init) (hos : ∀ kind, Answer.fail kind ∉ s.answers) :
    ∃ s', (simBus dbg).setSnCr sn .connect s = (.ok (), s') ∧ Regsim.Became s s' sn .established Regsim.CON ∧ (s'.sn sn).inner = some .tcpStream := by
  have hrun : ∃ a, (simBus dbg).setSnCr sn .connect s = (.ok (), { Sim.setSocket { s with answers := a } sn { s.sn sn with inner := some .tcpStream, regs := { (s.sn sn).regs with ir := ⟨(s.sn sn).regs.ir.raw ||| Regsim.CON⟩, sr := .established } } with regs.sir := s.regs.sir ||| sn.bitmask }) := by
    refine ⟨((s.answers.drop 1).drop 1).drop 1, ?_⟩
    rw [run_setSnCr]
    show socketCmdConnect sn s = _
    unfold socketCmdConnect
    rw [M.bind_ok (getSocket_run sn s), if_neg (fun h => h hi), M.bind_ok (askOk_run s hos), if_pos rfl,
      M.bind_ok (askUnit_run _ (OsOk.drop hos)), M.bind_ok (askUnit_run _ (OsOk.drop (OsOk.drop hos))), M.bind_ok (modSocket_run sn _ _), raiseSr_run]
    rw [setSocket_same, setSocket_twice]
    rfl
  obtain ⟨a, hrun⟩ := hrun
  refine ⟨_, hrun, ⟨?_, ?_, ?_, ?_, rfl, rfl⟩, ?_⟩
  · show ((Sim.setSocket _ sn _).sn sn).regs = _
    rw [setSocket_same]
  · show ((Sim.setSocket _ sn _).sn sn).txBuf = _
    rw [setSocket_same]
  · show ((Sim.setSocket _ sn _).sn sn).rxBuf = _
    rw [setSocket_same]
  · intro j hj
    exact setSocket_other _ _ _ _ hj
  · show ((Sim.setSocket _ sn _).sn sn).inner = _
    rw [setSocket_same]

/-- CONNECT, when the operating system cannot connect: the socket is closed and says so. -/
theorem C102_connect_refused (dbg : Bool) (s : Sim) (sn : Sn) (hi : (s.sn sn).regs.sr = .init) (kind : Nat) (rest : List Answer)
    (hos : s.answers = .fail kind :: rest) :
    ∃ s', (simBus dbg).setSnCr sn .connect s = (.ok (), s') ∧ Regsim.Became s s' sn .closed Regsim.DISCON := by
  have hrun : (simBus dbg).setSnCr sn .connect s = (.ok (), { Sim.setSocket { s with answers := rest } sn { s.sn sn with regs := { (s.sn sn).regs with ir := ⟨(s.sn sn).regs.ir.raw ||| Regsim.DISCON⟩, sr := .closed } } with regs.sir := s.regs.sir ||| sn.bitmask }) := by
    rw [run_setSnCr]
    show socketCmdConnect sn s = _
    unfold socketCmdConnect
    rw [M.bind_ok (getSocket_run sn s), if_neg (fun h => h hi), M.bind_ok (askOk_fail s kind rest hos), if_neg (fun h => by cases h), raiseSr_run]
    rfl
  refine ⟨_, hrun, ⟨?_, ?_, ?_, ?_, rfl, rfl⟩⟩
  · show ((Sim.setSocket _ sn _).sn sn).regs = _
    rw [setSocket_same]
  · show ((Sim.setSocket _ sn _).sn sn).txBuf = _
    rw [setSocket_same]
  · show ((Sim.setSocket _ sn _).sn sn).rxBuf = _
    rw [setSocket_same]
  · intro j hj
    exact setSocket_other _ _ _ _ hj

/-- LISTEN, when the operating system binds the port. -/
theorem C102_listen_partial (dbg : Bool) (s : Sim) (sn : Sn) (hi : (s.sn sn).regs.sr = .init) (hos : ∀ kind, Answer.fail kind ∉ s.answers) :
    ∃ s', (simBus dbg).setSnCr sn .listen s = (.ok (), s') ∧ Regsim.Became s s' sn .listen 0 ∧
      (s'.sn sn).inner = some .tcpListener ∧ (s'.sn sn).client = (s.sn sn).client ∧ s'.answers <:+ s.answers := by
  have hrun : (simBus dbg).setSnCr sn .listen s = (.ok (), Sim.setSocket { s with answers := ((s.answers.drop 1).drop 1).drop 1 } sn { s.sn sn with inner := some .tcpListener, regs := { (s.sn sn).regs with sr := .listen } }) := by
    rw [run_setSnCr]
    show socketCmdListen sn s = _
    unfold socketCmdListen
    rw [M.bind_ok (getSocket_run sn s), if_neg (fun h => h hi), M.bind_ok (askOk_run s hos), if_pos rfl,
      M.bind_ok (askUnit_run _ (OsOk.drop hos)), M.bind_ok (askUnit_run _ (OsOk.drop (OsOk.drop hos))), M.bind_ok (modSocket_run sn _ _)]
    unfold simSetSnSr
    rw [modRegs_run, setSocket_same, setSocket_twice]
  refine ⟨_, hrun, ⟨?_, ?_, ?_, ?_, rfl, rfl⟩, ?_, ?_, ?_⟩
  · rw [setSocket_same]
    simp
  · rw [setSocket_same]
  · rw [setSocket_same]
  · intro j hj
    exact setSocket_other _ _ _ _ hj
  · rw [setSocket_same]
  · rw [setSocket_same]
  · exact ((List.drop_suffix 1 _).trans (List.drop_suffix 1 _)).trans (List.drop_suffix 1 _)

/-- LISTEN, when the port is taken. -/
theorem C102_listen_refused (dbg : Bool) (s : Sim) (sn : Sn) (hi : (s.sn sn).regs.sr = .init) (kind : Nat) (rest : List Answer)
    (hos : s.answers = .fail kind :: rest) :
    ∃ s', (simBus dbg).setSnCr sn .listen s = (.ok (), s') ∧ Regsim.Became s s' sn .closed Regsim.TIMEOUT := by
  have hrun : (simBus dbg).setSnCr sn .listen s = (.ok (), { Sim.setSocket { s with answers := rest } sn { s.sn sn with regs := { (s.sn sn).regs with ir := ⟨(s.sn sn).regs.ir.raw ||| Regsim.TIMEOUT⟩, sr := .closed } } with regs.sir := s.regs.sir ||| sn.bitmask }) := by
    rw [run_setSnCr]
    show socketCmdListen sn s = _
    unfold socketCmdListen
    rw [M.bind_ok (getSocket_run sn s), if_neg (fun h => h hi), M.bind_ok (askOk_fail s kind rest hos), if_neg (fun h => by cases h), srRaise_run]
    rfl
  refine ⟨_, hrun, ⟨?_, ?_, ?_, ?_, rfl, rfl⟩⟩
  · show ((Sim.setSocket _ sn _).sn sn).regs = _
    rw [setSocket_same]
  · show ((Sim.setSocket _ sn _).sn sn).txBuf = _
    rw [setSocket_same]
  · show ((Sim.setSocket _ sn _).sn sn).rxBuf = _
    rw [setSocket_same]
  · intro j hj
    exact setSocket_other _ _ _ _ hj

/-- CLOSE: in every state. -/
theorem C102_close (dbg : Bool) (s : Sim) (sn : Sn) :
    ∃ s', (simBus dbg).setSnCr sn .close s = (.ok (), s') ∧ Regsim.Became s s' sn .closed 0 ∧ (s'.sn sn).inner = none ∧
      (s'.sn sn).client = (s.sn sn).client ∧ s'.answers = s.answers := by
  have hrun : (simBus dbg).setSnCr sn .close s = (.ok (), Sim.setSocket s sn { s.sn sn with inner := none, regs := { (s.sn sn).regs with sr := .closed } }) := by
    rw [run_setSnCr]
    show socketCmdClose sn s = _
    unfold socketCmdClose
    rw [M.bind_ok (modSocket_run sn _ _)]
    unfold simSetSnSr
    rw [modRegs_run, setSocket_same, setSocket_twice]
  refine ⟨_, hrun, ⟨?_, ?_, ?_, ?_, rfl, rfl⟩, ?_, ?_, rfl⟩
  · rw [setSocket_same]
    simp
  · rw [setSocket_same]
  · rw [setSocket_same]
  · intro j hj
    exact setSocket_other _ _ _ _ hj
  · rw [setSocket_same]
  · rw [setSocket_same]

/-- A client connects to a listening socket: the next read of the status still says that it listens, and leaves the socket connected. -/
theorem C102_accept_partial (dbg : Bool) (s : Sim) (sn : Sn) (hl : (s.sn sn).inner = some .tcpListener) (hc : (s.sn sn).client = false)
    (hsr : (s.sn sn).regs.sr = .listen)
    (hos : ∀ kind, Answer.fail kind ∉ s.answers) (a : Answer) (rest : List Answer) (ha : s.answers = a :: rest) (hw : a ≠ .wouldBlock) :
    ∃ s', (simBus dbg).snSr sn s = (.ok (.ok .listen), s') ∧ Regsim.Became s s' sn .established Regsim.CON ∧ (s'.sn sn).client = true ∧
      s'.answers <:+ s.answers := by
  have hask : ask s = (.ok a, { s with answers := rest }) := by unfold ask; rw [ha]
  have hrest : OsOk rest := fun k hk => hos k (by rw [ha]; exact List.mem_cons_of_mem _ hk)
  have hrun : checkSocket sn s = (.ok (), { Sim.setSocket { s with answers := rest.drop 1 } sn { s.sn sn with client := true, regs := { (s.sn sn).regs with ir := ⟨(s.sn sn).regs.ir.raw ||| Regsim.CON⟩, sr := .established } } with regs.sir := s.regs.sir ||| sn.bitmask }) := by
    have hk : (askUnit >>= fun _ => modSocket sn (fun k => { k with client := true }) >>= fun _ =>
        raiseSnIr sn SocketInterrupt.conMask >>= fun _ => simSetSnSr sn .established) { s with answers := rest } = (.ok (), { Sim.setSocket { s with answers := rest.drop 1 } sn { s.sn sn with client := true, regs := { (s.sn sn).regs with ir := ⟨(s.sn sn).regs.ir.raw ||| Regsim.CON⟩, sr := .established } } with regs.sir := s.regs.sir ||| sn.bitmask }) := by
      rw [M.bind_ok (askUnit_run _ hrest), M.bind_ok (modSocket_run sn _ _), raiseSr_run, setSocket_same, setSocket_twice]
      rfl
    refine Eq.trans ?_ hk
    unfold checkSocket
    rw [M.bind_ok (getSocket_run sn s)]
    simp only [hl, hc]
    rw [if_neg (fun h => by cases h), M.bind_ok hask]
    cases a with
    | done => rfl
    | wouldBlock => exact absurd rfl hw
    | fail k => exact absurd (by rw [ha]; exact List.mem_cons_self) (hos k)
    | data o b => rfl
  have hrd : socketRegRd SnReg.SR.addr sn s = (.ok (SocketStatus.code .listen), { Sim.setSocket { s with answers := rest.drop 1 } sn { s.sn sn with client := true, regs := { (s.sn sn).regs with ir := ⟨(s.sn sn).regs.ir.raw ||| Regsim.CON⟩, sr := .established } } with regs.sir := s.regs.sir ||| sn.bitmask }) := by
    unfold socketRegRd
    rw [M.bind_ok (getSocket_run sn s), if_pos (by decide), M.bind_ok hrun]
    show (Except.ok (s.sn sn).regs.sr.code, _) = _
    rw [hsr]
  have hread : (simBus dbg).snSr sn s = (.ok (.ok .listen), { Sim.setSocket { s with answers := rest.drop 1 } sn { s.sn sn with client := true, regs := { (s.sn sn).regs with ir := ⟨(s.sn sn).regs.ir.raw ||| Regsim.CON⟩, sr := .established } } with regs.sir := s.regs.sir ||| sn.bitmask }) := snSr_of_rd dbg hrd
  refine ⟨_, hread, ⟨?_, ?_, ?_, ?_, rfl, rfl⟩, ?_, ?_⟩
  · show ((Sim.setSocket _ sn _).sn sn).regs = _
    rw [setSocket_same]
  · show ((Sim.setSocket _ sn _).sn sn).txBuf = _
    rw [setSocket_same]
  · show ((Sim.setSocket _ sn _).sn sn).rxBuf = _
    rw [setSocket_same]
  · intro j hj
    exact setSocket_other _ _ _ _ hj
  · show ((Sim.setSocket _ sn _).sn sn).client = _
    rw [setSocket_same]
  · rw [ha]
    exact (List.drop_suffix 1 rest).trans (List.suffix_cons _ _)

/-- Any reads. -/
def Regsim.reads (dbg : Bool) (l : List (UInt16 × UInt8 × Nat)) (s : Sim) : Sim := l.foldl (fun s r => ((simBus dbg).read r.1 r.2.1 r.2.2 s).2) s

theorem Regsim.reads_conn (dbg : Bool) (sn : Sn) (k : Socket) (h₀ : k.inner = some .tcpListener → k.client = true) (l : List (UInt16 × UInt8 × Nat)) (s : Sim)
    (h : ConnIs sn k s) : ConnIs sn k (Regsim.reads dbg l s) := by
  induction l generalizing s with
  | nil => exact h
  | cons r l ih => exact ih _ (conn_read dbg h₀ r.1 r.2.1 r.2.2 s h)

/-- The status of a connected socket does not change, whatever the operating system answers: that the peer has closed the connection is not
seen. -/
theorem C102_peer_close_unseen (dbg : Bool) (s : Sim) (sn : Sn)
    (hconn : (s.sn sn).inner = some .tcpStream ∨ (s.sn sn).inner = some .tcpListener ∧ (s.sn sn).client = true)
    (l : List (UInt16 × UInt8 × Nat)) : ((Regsim.reads dbg l s).sn sn).regs.sr = (s.sn sn).regs.sr :=
  (Regsim.reads_conn dbg sn (s.sn sn) (fun e => by
    rcases hconn with h | h
    · rw [h] at e; cases e
    · exact h.2) l s ⟨rfl, rfl, rfl⟩).2.2

/-- A socket that has once accepted a connection accepts no other: closed, opened and listening again, it stays listening whoever connects. -/
theorem C102_second_listen_never_accepts (dbg : Bool) (s : Sim) (sn : Sn) (hc : (s.sn sn).client = true)
    (hp : (⟨(s.sn sn).regs.mr⟩ : SocketMode).protocol = .ok .tcp) (hos : ∀ kind, Answer.fail kind ∉ s.answers) :
    ∃ s1 s2 s3, (simBus dbg).setSnCr sn .close s = (.ok (), s1) ∧ (simBus dbg).setSnCr sn .open s1 = (.ok (), s2) ∧
      (simBus dbg).setSnCr sn .listen s2 = (.ok (), s3) ∧
      ∀ answers l, ((Regsim.reads dbg l { s3 with answers := answers }).sn sn).regs.sr = .listen := by
  obtain ⟨s1, h1, hb1, -, hc1, ha1⟩ := C102_close dbg s sn
  have hos1 : OsOk s1.answers := by rw [ha1]; exact hos
  have hp1 : (⟨(s1.sn sn).regs.mr⟩ : SocketMode).protocol = .ok .tcp := by rw [hb1.1]; exact hp
  have h2 : (simBus dbg).setSnCr sn .open s1 = (.ok (), s1.setSocket sn { s1.sn sn with inner := none, regs := { (s1.sn sn).regs with rxWr := 0, rxRd := 0, txRd := 0, txWr := 0, sr := .init } }) := by
    rw [run_setSnCr]
    show socketCmdOpen sn s1 = _
    unfold socketCmdOpen
    have e1 := modRegs_run sn (fun r => { r with rxWr := 0, rxRd := 0, txRd := 0, txWr := 0 }) s1
    rw [M.bind_ok e1, M.bind_ok (getSocket_run sn _), setSocket_same]
    have hp' : (⟨({ (s1.sn sn).regs with rxWr := 0, rxRd := 0, txRd := 0, txWr := 0 } : SocketRegs).mr⟩ : SocketMode).protocol = .ok .tcp := hp1
    simp only [hp']
    rw [M.bind_ok (modSocket_run sn _ _)]
    unfold simSetSnSr
    rw [modRegs_run, setSocket_same, setSocket_twice, setSocket_same, setSocket_twice]
  obtain ⟨s3, h3, hb3, hi3, hc3, -⟩ := C102_listen_partial dbg
    (s1.setSocket sn { s1.sn sn with inner := none, regs := { (s1.sn sn).regs with rxWr := 0, rxRd := 0, txRd := 0, txWr := 0, sr := .init } }) sn
    (by rw [setSocket_same]) hos1
  refine ⟨s1, _, s3, h1, h2, h3, fun answers l => ?_⟩
  have hc3' : (s3.sn sn).client = true := by rw [hc3, setSocket_same]; show (s1.sn sn).client = true; rw [hc1]; exact hc
  refine (Regsim.reads_conn dbg sn (s3.sn sn) (fun _ => hc3') l { s3 with answers := answers } ⟨rfl, rfl, rfl⟩).2.2.trans ?_
  rw [hb3.1]

/-- A socket listens, a client connects, the server reads the status twice; it closes and listens again; the second client is not seen. -/
example : let s := (Regsim.runScript ⟨.reset, fun _ => .default, [.done, .done, .done, .done, .done], []⟩
      [(SnReg.MR.addr, Sn.sn2.block, [1]), (SnReg.CR.addr, Sn.sn2.block, [1]), (SnReg.CR.addr, Sn.sn2.block, [2])])
    let t := Regsim.reads true [(SnReg.SR.addr, Sn.sn2.block, 1)] s
    Reached true t ∧ (s.sn .sn2).regs.sr = .listen ∧ (s.sn .sn2).client = false ∧ s.answers = [.done, .done] ∧
      (t.sn .sn2).regs.sr = .established ∧ (t.sn .sn2).regs.ir.raw = 1 ∧ (t.sn .sn2).client = true ∧ t.answers = [] ∧
      (⟨(t.sn .sn2).regs.mr⟩ : SocketMode).protocol = .ok .tcp :=
  ⟨.read _ _ _ (Regsim.runScript_reached _ _ (.start _)), by decide +kernel⟩

/-- A socket connects, or is refused. -/
example : let s := fun answers => (Regsim.runScript ⟨.reset, fun _ => .default, answers, []⟩
      [(SnReg.MR.addr, Sn.sn2.block, [1]), (SnReg.CR.addr, Sn.sn2.block, [1])])
    ((s []).sn .sn2).regs.sr = .init ∧ (((simBus true).setSnCr .sn2 .connect (s [])).2.sn .sn2).regs.sr = .established ∧
    (((simBus true).setSnCr .sn2 .connect (s [.fail 3])).2.sn .sn2).regs.ir.raw = 2 ∧
    (((simBus true).setSnCr .sn2 .listen (s [.fail 3])).2.sn .sn2).regs.ir.raw = 8 := by decide +kernel

/-- That the data of a SEND were sent is never reported: the SENDOK interrupt is not raised, whatever was done. -/
theorem C102_sendok_never_raised (dbg : Bool) (s : Sim) (hr : Reached dbg s) (sn : Sn) : peek s sn.block SnReg.IR.addr = some (s.sn sn).regs.ir.raw ∧
    (s.sn sn).regs.ir.raw &&& 0x10 = 0 := by
  constructor
  · rw [peek_eq]
    unfold cell
    rw [socket_block]
    rfl
  · have h := (by decide +kernel : ∀ n : Fin 16, UInt8.ofNat n &&& 0x10 = 0) ⟨_, (hr.inv sn).ir⟩
    simpa only [UInt8.ofNat_toNat] using h

/-- The commands of the chip the simulator does not have: DISCON, SEND_MAC, SEND_KEEP. -/
theorem C102_missing_commands_panic (dbg : Bool) (s : Sim) (sn : Sn) (c : SocketCommand) (hc : c ∈ [.disconnect, .sendMac, .sendKeep]) :
    (simBus dbg).setSnCr sn c s = (.error .panic, s) := by
  rw [run_setSnCr]
  simp only [List.mem_cons, List.not_mem_nil, or_false] at hc
  rcases hc with rfl | rfl | rfl <;> rfl

/-- The statement about the interrupt register, for every simulator reached by any accesses. -/
theorem C63_interrupts_reached (dbg : Bool) (s : Sim) (hr : Reached dbg s) (sn : Sn) (v : UInt8) :
    ∃ s', (simBus dbg).write SnReg.IR.addr sn.block [v] s = (.ok (), s') ∧ s'.out = s.out ∧
      ∀ block' addr', peek s' block' addr' =
        if block' = sn.block ∧ addr' = SnReg.IR.addr then some ((s.sn sn).regs.ir.raw &&& ~~~v)
        else if block' = commonBlockOffset ∧ addr' = Reg.SIR.addr then
          some (if ((s.sn sn).regs.ir.raw &&& ~~~v) &&& (s.sn sn).regs.imr = 0 then s.regs.sir &&& ~~~sn.bitmask else s.regs.sir)
        else peek s block' addr' :=
  C63_interrupts dbg s sn v (by have := (hr.inv sn).ir; omega)

/-- After a SEND that succeeded. -/
example : let s := Regsim.runScript ⟨.reset, fun _ => .default, [], []⟩ (Regsim.script ++ [(SnReg.CR.addr, Sn.sn2.block, [0x20])])
    Reached true s ∧ s.out.length = 1 ∧ (s.sn .sn2).regs.ir.raw = 0 := ⟨Regsim.runScript_reached _ _ (.start []), by decide +kernel⟩

end Verif.Thm

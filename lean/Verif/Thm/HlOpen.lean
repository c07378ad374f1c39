import Verif.Proof.OpenRegs
/-!
# C95: opening a socket
-/
namespace Verif.Thm
open Verif Hl
open _root_.Verif.Spec (World worldBus Chip Mem EnvStep)

/-- The port of a call that opens a socket. -/
def OpenCall.port : OpenCall → UInt16
  | .connect port _ | .listen port | .bind port => port

/-- The socket mode register for it, datasheet section 4.2: TCP is 1, UDP is 2, without options. -/
def OpenCall.mode : OpenCall → UInt8
  | .connect .. | .listen _ => 0x01
  | .bind _ => 0x02

/-- The status of the socket after it, if nothing else happens to the socket: SYN_SENT, LISTEN or UDP. -/
def OpenCall.status : OpenCall → UInt8
  | .connect .. => 0x15
  | .listen _ => 0x14
  | .bind _ => 0x22

/-- The registers of socket `k` as the call wants them. -/
structure Configured (c : Chip) (k : Nat) (call : OpenCall) : Prop where
  mode : c.mem (4 * k + 1) 0x00 = call.mode
  port : c.srcPort k = call.port.toNat
  dest : ∀ port addr, call = .connect port addr → c.destIp k = addr.ip.octets ∧ c.destPort k = addr.port.toNat

theorem mode_tcp : (SocketMode.default.setProtocol .tcp).raw = 1 := by decide
theorem mode_udp : (SocketMode.default.setProtocol .udp).raw = 2 := by decide

/-- The mode and the source port. -/
structure HasPort (c : Chip) (k : Nat) (mode : UInt8) (port : UInt16) : Prop where
  mode : c.mem (4 * k + 1) 0x00 = mode
  port : c.srcPort k = port.toNat

theorem HasPort.keep {c c' : Chip} {k : Nat} {m : UInt8} {p : UInt16} (h : HasPort c k m p)
    (hk : ∀ a, ConfigReg a → a < 0xC → c'.mem (4 * k + 1) a = c.mem (4 * k + 1) a) : HasPort c' k m p := by
  refine ⟨(hk 0 (.inl rfl) (by omega)).trans h.mode, ?_⟩
  rw [← h.port]
  unfold Chip.srcPort Mem.word
  rw [hk 4 (.inr (.inl (by omega))) (by omega), hk 5 (.inr (.inl (by omega))) (by omega)]

theorem HasPort.command {c : Chip} {k : Nat} {m : UInt8} {p : UInt16} (h : HasPort c k m p) (v : UInt8) : HasPort (c.command k v) k m p :=
  h.keep fun a ha _ => command_config c k a v ha

theorem HasPort.tick {w : World} {k : Nat} {m : UInt8} {p : UInt16} (h : HasPort w.chip k m p) : HasPort w.tick.chip k m p :=
  h.keep fun a ha _ => tick_config w k a ha

theorem HasPort.readOnly {α : Type} {f : M World α} (hf : ReadOnly f) {w : World} {k : Nat} {m : UInt8} {p : UInt16} (h : HasPort w.chip k m p) :
    HasPort (f w).2.chip k m p := h.keep fun a ha _ => hf.keepsConfig k w a ha

theorem setReg_srcPort (c : Chip) (k : Nat) (port : UInt16) : (c.setReg k 4 port.toNat).srcPort k = port.toNat := by
  unfold Chip.srcPort
  rw [setReg_word]
  exact Nat.mod_eq_of_lt port.toNat_lt

theorem setReg_mode (c : Chip) (k : Nat) (port : UInt16) : (c.setReg k 4 port.toNat).mem (4 * k + 1) 0 = c.mem (4 * k + 1) 0 :=
  Mem.setWord_ne _ _ _ _ _ _ (by omega)

theorem setDest_port {c : Chip} {k : Nat} {m : UInt8} {p : UInt16} (h : HasPort c k m p) (addr : SockAddr) : HasPort (setDest c k addr) k m p :=
  h.keep fun a ha hlt => setDest_same c k addr _ _ (by omega)

/-- The destination. -/
def HasDest (c : Chip) (k : Nat) (addr : SockAddr) : Prop := c.destIp k = addr.ip.octets ∧ c.destPort k = addr.port.toNat

theorem HasDest.keep {c c' : Chip} {k : Nat} {addr : SockAddr} (h : HasDest c k addr)
    (hk : ∀ a, ConfigReg a → c'.mem (4 * k + 1) a = c.mem (4 * k + 1) a) : HasDest c' k addr := by
  refine ⟨?_, ?_⟩
  · rw [← h.1]
    exact destIp_congr fun x h1 h2 => hk _ (.inr (.inl (by omega)))
  · rw [← h.2]
    unfold Chip.destPort Mem.word
    rw [hk 0x10 (.inr (.inl (by omega))), hk 0x11 (.inr (.inl (by omega)))]

theorem setDest_dest (c : Chip) (k : Nat) (addr : SockAddr) : HasDest (setDest c k addr) k addr := by
  refine ⟨?_, ?_⟩
  · simp [Chip.destIp, setDest, Mem.setWord, Mem.store, List.range, List.range.loop, Ipv4.octets]
  · unfold Chip.destPort setDest
    dsimp only
    rw [Mem.word_setWord]
    exact Nat.mod_eq_of_lt addr.port.toNat_lt

/-- C95: if a call that opens a socket has succeeded, whatever happened meanwhile, then the mode and the port of the socket, and for `tcp_connect` the
address of the server, are those of the call. -/
theorem C95_configured (dbg : Bool) (fuel : Nat) (sn : Sn) (call : OpenCall) (w w' : World) (h : call.exec dbg fuel sn w = (.ok (), w')) :
    Configured w'.chip sn.toU8.toNat call := by
  cases call with
  | connect port addr =>
    unfold OpenCall.exec tcpConnect at h
    obtain ⟨-, w1, -, h⟩ := M.bind_ok_inv h
    obtain ⟨-, w2, -, h⟩ := M.bind_ok_inv h
    obtain ⟨-, w3, -, h⟩ := M.bind_ok_inv h
    rw [M.bind_ok (run_setSnMr sn _ w3), M.bind_ok (run_setSnPort sn port _), M.bind_ok (run_setSnCr sn _ _), M.bind_ok (run_setSnDest sn addr _)] at h
    generalize hw : ({ w3.tick with chip := { w3.tick.chip with mem := w3.tick.chip.mem.store (4 * sn.idx + 1) 0 (SocketMode.default.setProtocol .tcp).raw } } : World) = u at h
    have hm : u.tick.chip.mem (4 * sn.idx + 1) 0 = 1 := by
      rw [tick_config _ _ _ (.inl rfl), ← hw, mode_tcp]
      simp [Mem.store]
    generalize hv : ({ u.tick with chip := u.tick.chip.setReg sn.idx 4 port.toNat } : World) = v at h
    have p1 : HasPort v.chip sn.idx 1 port := by
      rw [← hv]
      exact ⟨(setReg_mode _ _ _).trans hm, setReg_srcPort _ _ _⟩
    generalize hx : ({ v.tick with chip := v.tick.chip.command sn.idx SocketCommand.«open».code } : World) = x at h
    have p2 : HasPort x.chip sn.idx 1 port := by
      rw [← hx]
      exact p1.tick.command SocketCommand.«open».code
    generalize hy : ({ x.tick with chip := setDest x.tick.chip sn.idx addr } : World) = y at h
    have p3 : HasPort y.chip sn.idx 1 port := by
      rw [← hy]
      exact setDest_port p2.tick addr
    have d3 : HasDest y.chip sn.idx addr := by
      rw [← hy]
      exact setDest_dest _ _ _
    obtain ⟨_, w4, e4, h⟩ := M.bind_ok_inv h
    have p4 := p3.readOnly (readOnly_waitStatus sn .init fuel)
    have d4 := d3.keep fun a ha => (readOnly_waitStatus sn .init fuel).keepsConfig sn.idx y a ha
    rw [e4] at p4 d4
    rw [run_setSnCr] at h
    injection h with _ h
    subst h
    have p5 := p4.tick.command SocketCommand.connect.code
    refine ⟨p5.mode, p5.port, ?_⟩
    intro port' addr' he
    cases he
    exact d4.keep fun a ha => (command_config _ _ a _ ha).trans (tick_config w4 _ a ha)
  | listen port =>
    unfold OpenCall.exec tcpListen at h
    obtain ⟨-, w1, -, h⟩ := M.bind_ok_inv h
    obtain ⟨-, w2, -, h⟩ := M.bind_ok_inv h
    obtain ⟨-, w3, -, h⟩ := M.bind_ok_inv h
    rw [M.bind_ok (run_setSnMr sn _ w3), M.bind_ok (run_setSnPort sn port _), M.bind_ok (run_setSnCr sn _ _)] at h
    generalize hw : ({ w3.tick with chip := { w3.tick.chip with mem := w3.tick.chip.mem.store (4 * sn.idx + 1) 0 (SocketMode.default.setProtocol .tcp).raw } } : World) = u at h
    have hm : u.tick.chip.mem (4 * sn.idx + 1) 0 = 1 := by
      rw [tick_config _ _ _ (.inl rfl), ← hw, mode_tcp]
      simp [Mem.store]
    generalize hv : ({ u.tick with chip := u.tick.chip.setReg sn.idx 4 port.toNat } : World) = v at h
    have p1 : HasPort v.chip sn.idx 1 port := by
      rw [← hv]
      exact ⟨(setReg_mode _ _ _).trans hm, setReg_srcPort _ _ _⟩
    generalize hx : ({ v.tick with chip := v.tick.chip.command sn.idx SocketCommand.«open».code } : World) = x at h
    have p2 : HasPort x.chip sn.idx 1 port := by
      rw [← hx]
      exact p1.tick.command SocketCommand.«open».code
    obtain ⟨_, w4, e4, h⟩ := M.bind_ok_inv h
    have p4 := p2.readOnly (readOnly_waitStatus sn .init fuel)
    rw [e4] at p4
    rw [run_setSnCr] at h
    injection h with _ h
    subst h
    have p5 := p4.tick.command SocketCommand.listen.code
    exact ⟨p5.mode, p5.port, nofun⟩
  | bind port =>
    unfold OpenCall.exec udpBind at h
    obtain ⟨-, w1, -, h⟩ := M.bind_ok_inv h
    obtain ⟨-, w2, -, h⟩ := M.bind_ok_inv h
    obtain ⟨-, w3, -, h⟩ := M.bind_ok_inv h
    rw [M.bind_ok (run_setSnPort sn port _), M.bind_ok (run_setSnMr sn _ _), M.bind_ok (run_setSnCr sn _ _)] at h
    have p0 : (w3.tick.chip.setReg sn.idx 4 port.toNat).srcPort sn.idx = port.toNat := setReg_srcPort _ _ _
    generalize hu : ({ w3.tick with chip := w3.tick.chip.setReg sn.idx 4 port.toNat } : World) = u at h
    have p1 : u.tick.chip.srcPort sn.idx = port.toNat := by
      rw [← p0]
      unfold Chip.srcPort Mem.word
      rw [tick_config _ _ _ (.inr (.inl (by omega))), tick_config _ _ _ (.inr (.inl (by omega))), ← hu]
    generalize hv : ({ u.tick with chip := { u.tick.chip with mem := u.tick.chip.mem.store (4 * sn.idx + 1) 0 (SocketMode.default.setProtocol .udp).raw } } : World) = v at h
    have p2 : HasPort v.chip sn.idx 2 port := by
      rw [← hv]
      refine ⟨by rw [mode_udp]; simp [Mem.store], ?_⟩
      rw [← p1]
      simp [Chip.srcPort, Mem.word, Mem.store]
    generalize hx : ({ v.tick with chip := v.tick.chip.command sn.idx SocketCommand.«open».code } : World) = x at h
    have p3 : HasPort x.chip sn.idx 2 port := by
      rw [← hx]
      exact p2.tick.command SocketCommand.«open».code
    have p4 := p3.readOnly (readOnly_waitStatus sn .udp fuel)
    rw [h] at p4
    exact ⟨p4.mode, p4.port, nofun⟩

/-- C95: as long as nothing but the driver changes the status of the socket, the call succeeds after one poll of each status, whatever the socket was used for
before, and the socket listens, tries to connect, or is a UDP socket.  (In a debug build it may panic instead, if the port is used by another
socket: C23.) -/
theorem C95_opens (dbg : Bool) (fuel : Nat) (sn : Sn) (call : OpenCall) (w : World) (hf : 1 ≤ fuel) (h : Steady sn.toU8.toNat w) :
    (dbg = true ∧ (call.exec dbg fuel sn w).1 = .error .panic) ∨
    (∃ w', call.exec dbg fuel sn w = (.ok (), w') ∧ w'.chip.status sn.toU8.toNat = call.status ∧ Steady sn.toU8.toNat w') := by
  obtain ⟨f, rfl⟩ : ∃ f, fuel = f + 1 := ⟨fuel - 1, by omega⟩
  rcases close_run dbg f sn call.port w h with ⟨w1, hd, e⟩ | ⟨w1, h1, e⟩
  · left
    refine ⟨hd, ?_⟩
    cases call <;> exact congrArg Prod.fst (e _)
  right
  cases call with
  | connect port addr =>
    have e := e (do
      worldBus.setSnMr sn (SocketMode.default.setProtocol .tcp)
      worldBus.setSnPort sn port
      worldBus.setSnCr sn .«open»
      worldBus.setSnDest sn addr
      waitStatus worldBus sn .init (f + 1)
      worldBus.setSnCr sn .connect)
    have e2 : OpenCall.exec dbg (f + 1) sn (.connect port addr) w = _ := e
    rw [e2, M.bind_ok (run_setSnMr sn _ w1), M.bind_ok (run_setSnPort sn port _), M.bind_ok (run_setSnCr sn _ _), M.bind_ok (run_setSnDest sn addr _)]
    generalize hw : ({ w1.tick with chip := { w1.tick.chip with mem := w1.tick.chip.mem.store (4 * sn.idx + 1) 0 (SocketMode.default.setProtocol .tcp).raw } } : World) = u
    have hu : Steady sn.idx u := by rw [← hw]; exact h1.tick.1
    have hm : u.tick.chip.mem (4 * sn.idx + 1) 0 = 1 := by
      rw [tick_config _ _ _ (.inl rfl), ← hw, mode_tcp]
      simp [Mem.store]
    generalize hv : ({ u.tick with chip := u.tick.chip.setReg sn.idx 4 port.toNat } : World) = v
    have hv1 : Steady sn.idx v := by rw [← hv]; exact hu.tick.1
    have hm2 : v.tick.chip.mem (4 * sn.idx + 1) 0 = 1 := by
      rw [tick_config _ _ _ (.inl rfl), ← hv]
      exact (setReg_mode _ _ _).trans hm
    have hs := open_status v.tick.chip sn.idx 1 hm2
    generalize hx : ({ v.tick with chip := v.tick.chip.command sn.idx SocketCommand.«open».code } : World) = x
    have hx1 : Steady sn.idx x := by rw [← hx]; exact hv1.tick.1
    have hx2 : x.tick.chip.status sn.idx = 0x13 := by rw [hx1.tick.2, ← hx]; exact hs
    generalize hy : ({ x.tick with chip := setDest x.tick.chip sn.idx addr } : World) = y
    have hy1 : Steady sn.idx y := by rw [← hy]; exact hx1.tick.1
    have hy2 : y.chip.status sn.idx = 0x13 := by
      rw [← hx2, ← hy]
      exact setDest_same _ _ _ _ _ (by omega)
    rw [M.bind_ok (waitStatus_now f hy1 (by rw [hy2]; rfl)), run_setSnCr]
    refine ⟨_, rfl, ?_, hy1.tick.1.tick.1⟩
    have : y.tick.tick.chip.status sn.idx = 0x13 := by rw [hy1.tick.1.tick.2, hy1.tick.2, hy2]
    show (if y.tick.tick.chip.status sn.idx = 0x13 then y.tick.tick.chip.setStatus sn.idx 0x15 else y.tick.tick.chip).status sn.idx = 0x15
    rw [if_pos this]
    simp [Chip.status, Chip.setStatus, Mem.store]
  | listen port =>
    have e := e (do
      worldBus.setSnMr sn (SocketMode.default.setProtocol .tcp)
      worldBus.setSnPort sn port
      worldBus.setSnCr sn .«open»
      waitStatus worldBus sn .init (f + 1)
      worldBus.setSnCr sn .listen)
    have e2 : OpenCall.exec dbg (f + 1) sn (.listen port) w = _ := e
    rw [e2, M.bind_ok (run_setSnMr sn _ w1), M.bind_ok (run_setSnPort sn port _), M.bind_ok (run_setSnCr sn _ _)]
    generalize hw : ({ w1.tick with chip := { w1.tick.chip with mem := w1.tick.chip.mem.store (4 * sn.idx + 1) 0 (SocketMode.default.setProtocol .tcp).raw } } : World) = u
    have hu : Steady sn.idx u := by rw [← hw]; exact h1.tick.1
    have hm : u.tick.chip.mem (4 * sn.idx + 1) 0 = 1 := by
      rw [tick_config _ _ _ (.inl rfl), ← hw, mode_tcp]
      simp [Mem.store]
    generalize hv : ({ u.tick with chip := u.tick.chip.setReg sn.idx 4 port.toNat } : World) = v
    have hv1 : Steady sn.idx v := by rw [← hv]; exact hu.tick.1
    have hm2 : v.tick.chip.mem (4 * sn.idx + 1) 0 = 1 := by
      rw [tick_config _ _ _ (.inl rfl), ← hv]
      exact (setReg_mode _ _ _).trans hm
    have hs := open_status v.tick.chip sn.idx 1 hm2
    generalize hx : ({ v.tick with chip := v.tick.chip.command sn.idx SocketCommand.«open».code } : World) = x
    have hx1 : Steady sn.idx x := by rw [← hx]; exact hv1.tick.1
    have hx2 : x.chip.status sn.idx = 0x13 := by rw [← hx]; exact hs
    rw [M.bind_ok (waitStatus_now f hx1 (by rw [hx2]; rfl)), run_setSnCr]
    refine ⟨_, rfl, ?_, hx1.tick.1.tick.1⟩
    have : x.tick.tick.chip.status sn.idx = 0x13 := by rw [hx1.tick.1.tick.2, hx1.tick.2, hx2]
    show (if x.tick.tick.chip.status sn.idx = 0x13 then x.tick.tick.chip.setStatus sn.idx 0x14 else x.tick.tick.chip).status sn.idx = 0x14
    rw [if_pos this]
    simp [Chip.status, Chip.setStatus, Mem.store]
  | bind port =>
    have e := e (do
      worldBus.setSnPort sn port
      worldBus.setSnMr sn (SocketMode.default.setProtocol .udp)
      worldBus.setSnCr sn .«open»
      waitStatus worldBus sn .udp (f + 1))
    have e2 : OpenCall.exec dbg (f + 1) sn (.bind port) w = _ := e
    rw [e2, M.bind_ok (run_setSnPort sn port _), M.bind_ok (run_setSnMr sn _ _), M.bind_ok (run_setSnCr sn _ _)]
    generalize hw : ({ w1.tick with chip := w1.tick.chip.setReg sn.idx 4 port.toNat } : World) = u
    have hu : Steady sn.idx u := by rw [← hw]; exact h1.tick.1
    generalize hv : ({ u.tick with chip := { u.tick.chip with mem := u.tick.chip.mem.store (4 * sn.idx + 1) 0 (SocketMode.default.setProtocol .udp).raw } } : World) = v
    have hv1 : Steady sn.idx v := by rw [← hv]; exact hu.tick.1
    have hm2 : v.tick.chip.mem (4 * sn.idx + 1) 0 = 2 := by
      rw [tick_config _ _ _ (.inl rfl), ← hv, mode_udp]
      simp [Mem.store]
    have hs := open_status v.tick.chip sn.idx 2 hm2
    generalize hx : ({ v.tick with chip := v.tick.chip.command sn.idx SocketCommand.«open».code } : World) = x
    have hx1 : Steady sn.idx x := by rw [← hx]; exact hv1.tick.1
    have hx2 : x.chip.status sn.idx = 0x22 := by rw [← hx]; exact hs
    rw [waitStatus_now f hx1 (by rw [hx2]; rfl)]
    exact ⟨_, rfl, hx1.tick.2.trans hx2, hx1.tick.1⟩

/-- The world of the other examples: nothing but the driver changes the status before the socket is open. -/
example : ∃ w', OpenCall.exec false 1 .sn3 (.connect 4000 ⟨⟨10, 0, 0, 1⟩, 1883⟩) { sampleWorld with sched := [] } = (.ok (), w') ∧
    w'.chip.status 3 = 0x15 ∧ Configured w'.chip 3 (.connect 4000 ⟨⟨10, 0, 0, 1⟩, 1883⟩) := by
  obtain ⟨w', h1, h2, -⟩ := (C95_opens false 1 .sn3 (.connect 4000 ⟨⟨10, 0, 0, 1⟩, 1883⟩) { sampleWorld with sched := [] } (by decide) nofun).resolve_left
    (fun h => absurd h.1 (by decide))
  exact ⟨w', h1, h2, C95_configured false 1 .sn3 _ _ w' h1⟩

example : Configured opened.chip 3 (.listen 80) :=
  C95_configured false 3 .sn3 (.listen 80) sampleWorld opened
    (Prod.ext (by decide +kernel : (OpenCall.exec false 3 .sn3 (.listen 80) sampleWorld).1 = .ok ()) rfl)

end Verif.Thm

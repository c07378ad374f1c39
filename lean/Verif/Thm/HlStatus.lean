import Verif.Thm.HlTcp
import Verif.Spec.DhcpHistory
/-!
# C75: closing, disconnecting and asking for the socket state

`w.tick` is the chip at the moment of the next bus access (the environment may have acted before it).  The status codes are those of
the datasheet, section 4.2: closed 0x00, init 0x13, listen 0x14, SYN sent 0x15, SYN received 0x16, established 0x17, FIN wait 0x18,
closing 0x1A, time wait 0x1B, close wait 0x1C, last ACK 0x1D, UDP 0x22, MACRAW 0x42.
-/
namespace Verif.Thm
open Verif Hl Spec

theorem status_is (s : SocketStatus) (x : UInt8) : decide (SocketStatus.tryFrom x = .ok s) = decide (x = s.code) := by
  cases s <;> exact forall_u8 (p := fun x => decide (SocketStatus.tryFrom x = .ok _) = decide (x = _)) (by decide +kernel) x

theorem status_tcp (x : UInt8) :
    decide (SocketStatus.tryFrom x = .ok .closed ∨ SocketStatus.tryFrom x = .ok .listen ∨ SocketStatus.tryFrom x = .ok .synSent ∨
      SocketStatus.tryFrom x = .ok .synRecv ∨ SocketStatus.tryFrom x = .ok .established ∨ SocketStatus.tryFrom x = .ok .finWait ∨
      SocketStatus.tryFrom x = .ok .closing ∨ SocketStatus.tryFrom x = .ok .closeWait ∨ SocketStatus.tryFrom x = .ok .timeWait ∨
      SocketStatus.tryFrom x = .ok .lastAck) =
    decide (x ∈ [0x00, 0x14, 0x15, 0x16, 0x17, 0x18, 0x1A, 0x1B, 0x1C, 0x1D]) :=
  forall_u8 (p := fun x => decide (SocketStatus.tryFrom x = .ok .closed ∨ SocketStatus.tryFrom x = .ok .listen ∨ SocketStatus.tryFrom x = .ok .synSent ∨
      SocketStatus.tryFrom x = .ok .synRecv ∨ SocketStatus.tryFrom x = .ok .established ∨ SocketStatus.tryFrom x = .ok .finWait ∨
      SocketStatus.tryFrom x = .ok .closing ∨ SocketStatus.tryFrom x = .ok .closeWait ∨ SocketStatus.tryFrom x = .ok .timeWait ∨
      SocketStatus.tryFrom x = .ok .lastAck) = decide (x ∈ [0x00, 0x14, 0x15, 0x16, 0x17, 0x18, 0x1A, 0x1B, 0x1C, 0x1D])) (by decide +kernel) x

/-- C75: the state queries answer from the status the chip has at that moment, and change nothing. -/
theorem C75_state_queries (sn : Sn) (w : World) :
    let x := w.tick.chip.status sn.toU8.toNat
    isStateClosed worldBus sn w = (.ok (decide (x = 0x00)), w.tick) ∧
    isStateUdp worldBus sn w = (.ok (decide (x = 0x22)), w.tick) ∧
    isStateTcp worldBus sn w = (.ok (decide (x ∈ [0x00, 0x14, 0x15, 0x16, 0x17, 0x18, 0x1A, 0x1B, 0x1C, 0x1D])), w.tick) := by
  intro x
  refine ⟨?_, ?_, ?_⟩
  · unfold isStateClosed
    rw [M.bind_ok (run_snSr sn w)]
    exact congrArg (fun b => (Except.ok b, w.tick)) (status_is .closed x)
  · unfold isStateUdp
    rw [M.bind_ok (run_snSr sn w)]
    exact congrArg (fun b => (Except.ok b, w.tick)) (status_is .udp x)
  · unfold isStateTcp
    rw [M.bind_ok (run_snSr sn w)]
    exact congrArg (fun b => (Except.ok b, w.tick)) (status_tcp x)

/-- C75: `close` closes the socket, whatever state it is in, and changes nothing else. -/
theorem C75_close (sn : Sn) (w : World) :
    ∃ w', close worldBus sn w = (.ok (), w') ∧ w'.chip = w.tick.chip.setStatus sn.toU8.toNat 0x00 :=
  ⟨_, run_setSnCr sn .close w, rfl⟩

/-- What a graceful disconnect makes of a connection: an established one starts to close (FIN wait), one that the peer has closed waits
for the last ACK, and in every other state nothing happens. -/
def disconnected (status : UInt8) : UInt8 := if status = 0x17 then 0x18 else if status = 0x1C then 0x1D else status

theorem setStatus_same (c : Chip) (k : Nat) : c.setStatus k (c.status k) = c := by
  have : c.mem.store (4 * k + 1) 3 (c.mem (4 * k + 1) 3) = c.mem := by
    funext b a
    unfold Mem.store
    split
    · rename_i h; obtain ⟨h1, h2⟩ := h; rw [h1, h2]
    · rfl
  unfold Chip.setStatus Chip.status
  rw [this]

/-- C75: `tcp_disconnect` starts a graceful disconnect (it does not close the socket at once) and changes nothing else.  In a debug build it
first panics if the socket is not a TCP socket. -/
theorem C75_disconnect (dbg : Bool) (sn : Sn) (w : World) :
    let k := sn.toU8.toNat
    (dbg = true ∧ w.tick.chip.status k ∈ [0x22, 0x13, 0x42] ∧ tcpDisconnect dbg worldBus sn w = (.error .panic, w.tick)) ∨
    ((dbg = true → w.tick.chip.status k ∉ [0x22, 0x13, 0x42]) ∧
      ∃ w', tcpDisconnect dbg worldBus sn w = (.ok (), w') ∧
        let c := if dbg then w.tick.tick.chip else w.tick.chip
        w'.chip = c.setStatus k (disconnected (c.status k))) := by
  intro k
  have hcmd : ∀ w1 : World, w1.chip.command k SocketCommand.disconnect.code = w1.chip.setStatus k (disconnected (w1.chip.status k)) := by
    intro w1
    show (if w1.chip.status k = 0x17 then w1.chip.setStatus k 0x18 else if w1.chip.status k = 0x1C then w1.chip.setStatus k 0x1D else w1.chip) = _
    unfold disconnected
    by_cases h1 : w1.chip.status k = 0x17
    · rw [if_pos h1, if_pos h1]
    · rw [if_neg h1, if_neg h1]
      by_cases h2 : w1.chip.status k = 0x1C
      · rw [if_pos h2, if_pos h2]
      · rw [if_neg h2, if_neg h2, setStatus_same]
  cases dbg with
  | false =>
    right
    refine ⟨nofun, _, run_setSnCr sn .disconnect w, hcmd w.tick⟩
  | true =>
    have hn : notUdpInitMacraw worldBus sn w = (.ok (!decide (w.tick.chip.status k ∈ [0x22, 0x13, 0x42])), w.tick) := by
      unfold notUdpInitMacraw
      rw [M.bind_ok (run_snSr sn w)]
      refine congrArg (fun b => (Except.ok (!b), w.tick)) ?_
      exact forall_u8 (p := fun x => decide (SocketStatus.tryFrom x = .ok .udp ∨ SocketStatus.tryFrom x = .ok .init ∨ SocketStatus.tryFrom x = .ok .macraw)
        = decide (x ∈ [0x22, 0x13, 0x42])) (by decide +kernel) _
    by_cases h : w.tick.chip.status k ∈ [0x22, 0x13, 0x42]
    · left
      refine ⟨rfl, h, ?_⟩
      unfold tcpDisconnect debugAssert
      rw [if_pos rfl, bind_assoc, M.bind_ok hn, decide_eq_true h]
      rfl
    · right
      refine ⟨fun _ => h, { w.tick.tick with chip := w.tick.tick.chip.command k SocketCommand.disconnect.code }, ?_, hcmd w.tick.tick⟩
      unfold tcpDisconnect debugAssert
      rw [if_pos rfl, bind_assoc, M.bind_ok hn, decide_eq_false h]
      exact run_setSnCr sn .disconnect w.tick

/-- C75: `local_addr` is the chip's address and the socket's source port. -/
theorem C75_local_addr (sn : Sn) (w : World) :
    ∃ a, localAddr worldBus sn w = (.ok a, w.tick.tick) ∧ a.ip.octets = w.tick.chip.ownIp ∧
      a.port.toNat = w.tick.tick.chip.srcPort sn.toU8.toNat := by
  refine ⟨⟨⟨w.tick.chip.mem 0 15, w.tick.chip.mem 0 16, w.tick.chip.mem 0 17, w.tick.chip.mem 0 18⟩,
    UInt16.ofNat (w.tick.tick.chip.srcPort sn.idx)⟩, ?_, rfl, ofNat16_toNat (Mem.word_lt _ _ _)⟩
  unfold localAddr
  rw [M.bind_ok (show worldBus.sipr w = (.ok ⟨w.tick.chip.mem 0 15, w.tick.chip.mem 0 16, w.tick.chip.mem 0 17, w.tick.chip.mem 0 18⟩, w.tick) from rfl),
    M.bind_ok (run_snPort sn w.tick)]
  rfl

/-- The chip of `C75_disconnect` with an established connection on socket 3: `tcp_disconnect` leaves it in FIN wait, `close` closed. -/
example :
    let w : World := ⟨sampleWorld.chip.setStatus 3 0x17, []⟩
    (tcpDisconnect true worldBus .sn3 w).2.chip.status 3 = 0x18 ∧ (close worldBus .sn3 w).2.chip.status 3 = 0x00 ∧
    (isStateTcp worldBus .sn3 w).1 = .ok true ∧ (isStateUdp worldBus .sn3 w).1 = .ok false := by
  refine ⟨by decide +kernel, by decide +kernel, by decide +kernel, by decide +kernel⟩

end Verif.Thm

import Verif.Proof.Cost
import Verif.Spec.Cost
import Verif.Proof.Call
import Verif.Thm.Panic
/-!
# C128: calls of the socket layer end after a fixed number of accesses

`accesses`, `notStatus` and `inDebug` are in `Spec/Cost.lean`.
-/
namespace Verif.Thm
open Hl
open _root_.Verif.Spec (Access traceBus accesses notStatus inDebug)

section
variable {σ α : Type} {b : Bus σ} {sn : Sn}

theorem Cost.accesses {n : Nat} {m : M (σ × List Access) α} (h : Cost (fun _ => true) n m) (s : σ) : (accesses m s).length ≤ n := by
  have : (Verif.Spec.accesses m s).countP (fun _ => true) ≤ ([] : List Access).countP (fun _ => true) + n := h (s, [])
  rw [List.countP_true] at this
  exact Nat.le_trans this (by simp)

theorem Cost.others {n : Nat} {m : M (σ × List Access) α} {p : Access → Bool} (h : Cost p n m) (s : σ) : ((Verif.Spec.accesses m s).filter p).length ≤ n := by
  have := h (s, [])
  rw [← List.countP_eq_length_filter]
  exact Nat.le_trans this (by simp)

theorem status_not (sn : Sn) (e : Option Err) : notStatus sn ⟨false, sn.block, SnReg.SR.addr, 1, e⟩ = false := by cases sn <;> rfl

macro "sock_cost" : tactic => `(tactic|
  cost_tac [cost_snRxRsr, cost_snRxRd, cost_snTxFsr, cost_snTxWr, cost_snTxPtrs, cost_setSnCr _, cost_setSnMr _, cost_setSnPort _, cost_setSnDest _,
    cost_setSnRxRd _, cost_setSnTxWr _, cost_snRxBuf _ _, cost_setSnTxBuf _ _, cost_debugAssert _ cost_notUdpInitMacraw,
    cost_debugAssert _ cost_srIsUdp, cost_debugAssert _ (cost_portIsUnique _), cost_portIsUnique _,
    cost_snPort _, cost_snSr _, cost_sipr, cost_waitStatus _ (status_not _) _])

/-- **C128, TCP** Whatever the device answers and however long the data are. -/
theorem C128_tcp (b : Bus σ) (dbg : Bool) (sn : Sn) (s : σ) (n : Nat) (buf : Bytes) :
    (accesses (tcpRead dbg (traceBus b) sn n) s).length ≤ 5 + inDebug dbg 1 ∧
    (accesses (tcpWrite dbg (traceBus b) sn buf) s).length ≤ 5 + inDebug dbg 1 ∧
    (accesses (tcpDisconnect dbg (traceBus b) sn) s).length ≤ 1 + inDebug dbg 1 ∧
    (accesses (tcpReader dbg (traceBus b) sn) s).length ≤ 2 + inDebug dbg 1 ∧
    (accesses (socketWriter (traceBus b) sn) s).length ≤ 1 := by
  refine ⟨?_, ?_, ?_, ?_, ?_⟩
  · apply Cost.accesses; apply Cost.mono
    · unfold tcpRead; sock_cost
    · cases dbg <;> decide
  · apply Cost.accesses; apply Cost.mono
    · unfold tcpWrite; sock_cost
    · cases dbg <;> decide
  · apply Cost.accesses; apply Cost.mono
    · unfold tcpDisconnect; sock_cost
    · cases dbg <;> decide
  · apply Cost.accesses; apply Cost.mono
    · unfold tcpReader; sock_cost
    · cases dbg <;> decide
  · apply Cost.accesses; apply Cost.mono
    · unfold socketWriter; sock_cost
    · decide

/-- C128, UDP. -/
theorem C128_udp (b : Bus σ) (dbg : Bool) (sn : Sn) (s : σ) (n : Nat) (buf : Bytes) (addr : SockAddr) :
    (accesses (udpRecvFrom dbg (traceBus b) sn n) s).length ≤ 6 + inDebug dbg 1 ∧
    (accesses (udpPeekFrom dbg (traceBus b) sn n) s).length ≤ 4 + inDebug dbg 1 ∧
    (accesses (udpPeekFromHeader dbg (traceBus b) sn) s).length ≤ 3 + inDebug dbg 1 ∧
    (accesses (udpSend dbg (traceBus b) sn buf) s).length ≤ 5 + inDebug dbg 1 ∧
    (accesses (udpSendTo dbg (traceBus b) sn buf addr) s).length ≤ 6 + inDebug dbg 1 ∧
    (accesses (udpSendIfFree dbg (traceBus b) sn buf) s).length ≤ 5 + inDebug dbg 1 ∧
    (accesses (udpSendToIfFree dbg (traceBus b) sn buf addr) s).length ≤ 6 + inDebug dbg 1 ∧
    (accesses (udpReader dbg (traceBus b) sn) s).length ≤ 3 + inDebug dbg 1 := by
  refine ⟨?_, ?_, ?_, ?_, ?_, ?_, ?_, ?_⟩
  · apply Cost.accesses; apply Cost.mono
    · unfold udpRecvFrom; sock_cost
    · cases dbg <;> decide
  · apply Cost.accesses; apply Cost.mono
    · unfold udpPeekFrom; sock_cost
    · cases dbg <;> decide
  · apply Cost.accesses; apply Cost.mono
    · unfold udpPeekFromHeader; sock_cost
    · cases dbg <;> decide
  · apply Cost.accesses; apply Cost.mono
    · unfold udpSend; sock_cost
    · cases dbg <;> decide
  · apply Cost.accesses; apply Cost.mono
    · unfold udpSendTo udpSend; sock_cost
    · cases dbg <;> decide
  · apply Cost.accesses; apply Cost.mono
    · unfold udpSendIfFree; sock_cost
    · cases dbg <;> decide
  · apply Cost.accesses; apply Cost.mono
    · unfold udpSendToIfFree udpSendIfFree; sock_cost
    · cases dbg <;> decide
  · apply Cost.accesses; apply Cost.mono
    · unfold udpReader; sock_cost
    · cases dbg <;> decide

/-- C128, readers and writers: seeking makes no access at all. -/
theorem C128_streams (b : Bus σ) (dbg : Bool) (r : Ptrs) (u : UdpReader) (s : σ) (n : Nat) (buf : Bytes) (addr : SockAddr) :
    (accesses (tcpReaderRead (traceBus b) r n) s).length ≤ 1 ∧
    (accesses (tcpReaderReadExact (traceBus b) r n) s).length ≤ 1 ∧
    (accesses (tcpReaderDone (traceBus b) r) s).length ≤ 2 ∧
    (accesses (udpReaderDone (traceBus b) u) s).length ≤ 2 ∧
    (accesses (writerWrite (traceBus b) r buf) s).length ≤ 1 ∧
    (accesses (writerWriteAll (traceBus b) r buf) s).length ≤ 1 ∧
    (accesses (writerSend (traceBus b) r) s).length ≤ 2 ∧
    (accesses (udpWriterSendTo dbg (traceBus b) r addr) s).length ≤ 3 + inDebug dbg 1 := by
  refine ⟨?_, ?_, ?_, ?_, ?_, ?_, ?_, ?_⟩
  · apply Cost.accesses; apply Cost.mono
    · unfold tcpReaderRead; sock_cost
    · decide
  · apply Cost.accesses; apply Cost.mono
    · unfold tcpReaderReadExact; sock_cost
    · decide
  · apply Cost.accesses; apply Cost.mono
    · unfold tcpReaderDone; sock_cost
    · decide
  · apply Cost.accesses; apply Cost.mono
    · unfold udpReaderDone; sock_cost
    · decide
  · apply Cost.accesses; apply Cost.mono
    · unfold writerWrite; sock_cost
    · decide
  · apply Cost.accesses; apply Cost.mono
    · unfold writerWriteAll; sock_cost
    · decide
  · apply Cost.accesses; apply Cost.mono
    · unfold writerSend; sock_cost
    · decide
  · apply Cost.accesses; apply Cost.mono
    · unfold udpWriterSendTo writerSend; sock_cost
    · cases dbg <;> decide

/-- C128, the functions common to TCP and UDP. -/
theorem C128_common (b : Bus σ) (sn : Sn) (port : UInt16) (s : σ) :
    (accesses (localAddr (traceBus b) sn) s).length ≤ 2 ∧
    (accesses (Hl.close (traceBus b) sn) s).length ≤ 1 ∧
    (accesses (isStateClosed (traceBus b) sn) s).length ≤ 1 ∧
    (accesses (isStateTcp (traceBus b) sn) s).length ≤ 1 ∧
    (accesses (isStateUdp (traceBus b) sn) s).length ≤ 1 ∧
    (accesses (portIsUnique (traceBus b) sn port) s).length ≤ 14 := by
  refine ⟨?_, ?_, ?_, ?_, ?_, ?_⟩
  · apply Cost.accesses; apply Cost.mono
    · unfold localAddr; sock_cost
    · decide
  · apply Cost.accesses; apply Cost.mono
    · unfold Hl.close; sock_cost
    · decide
  · apply Cost.accesses; apply Cost.mono
    · unfold isStateClosed; sock_cost
    · decide
  · apply Cost.accesses; apply Cost.mono
    · unfold isStateTcp; sock_cost
    · decide
  · apply Cost.accesses; apply Cost.mono
    · unfold isStateUdp; sock_cost
    · decide
  · apply Cost.accesses; apply Cost.mono
    · sock_cost
    · decide

/-- C128, opening a socket: the only accesses whose number is not fixed are reads of the status register, while the chip has not reached the
status that the call waits for. -/
theorem C128_open (b : Bus σ) (dbg : Bool) (fuel : Nat) (sn : Sn) (port : UInt16) (addr : SockAddr) (s : σ) :
    ((accesses (tcpConnect dbg fuel (traceBus b) sn port addr) s).filter (notStatus sn)).length ≤ 6 + inDebug dbg 14 ∧
    ((accesses (tcpListen dbg fuel (traceBus b) sn port) s).filter (notStatus sn)).length ≤ 5 + inDebug dbg 14 ∧
    ((accesses (udpBind dbg fuel (traceBus b) sn port) s).filter (notStatus sn)).length ≤ 4 + inDebug dbg 14 := by
  refine ⟨?_, ?_, ?_⟩
  · apply Cost.others; apply Cost.mono
    · unfold tcpConnect; sock_cost
    · cases dbg <;> decide
  · apply Cost.others; apply Cost.mono
    · unfold tcpListen; sock_cost
    · cases dbg <;> decide
  · apply Cost.others; apply Cost.mono
    · unfold udpBind; sock_cost
    · cases dbg <;> decide

end

/-! ## The numbers are reached -/

/-- Reading from a socket with data, in a debug build. -/
example : (accesses (tcpRead true (traceBus (fillBus 0x17)) .sn2 100000) ()).length = 6 := by decide +kernel
example : (accesses (tcpWrite false (traceBus (fillBus 0x17)) .sn2 (List.replicate 3000 0)) ()).length = 5 := by decide +kernel
example : (accesses (udpPeekFromHeader true (traceBus (fillBus 0x22)) .sn7) ()).length = 4 := by decide +kernel
example : (accesses (udpSendTo false (traceBus (fillBus 0x22)) .sn0 [1, 2, 3] ⟨⟨10, 0, 0, 1⟩, 53⟩) ()).length = 6 := by decide +kernel
/-- A chip that never closes the socket: one access, and then reads of the status. -/
example : accesses (udpBind false 3 (traceBus (fillBus 0x22)) .sn1 53) () = ⟨true, 5, 1, 1, none⟩ :: List.replicate 3 ⟨false, 5, 3, 1, none⟩ ∧
    ((accesses (udpBind false 3 (traceBus (fillBus 0x22)) .sn1 53) ()).filter (notStatus .sn1)).length ≤ 4 :=
  ⟨by rfl, (C128_open _ false _ _ _ ⟨⟨0, 0, 0, 0⟩, 0⟩ _).2.2⟩

end Verif.Thm

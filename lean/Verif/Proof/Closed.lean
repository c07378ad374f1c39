import Verif.Model.Hl.Udp
import Verif.Model.Hl.Prog
namespace Verif
open Hl

/-- The blocks of one socket: registers, transmit buffer, receive buffer. -/
def OwnBlock (sn : Sn) (blk : UInt8) : Prop := blk = sn.block ∨ blk = sn.txBlock ∨ blk = sn.rxBlock

/-- A property of computations that is closed under sequencing and holds of the bus accesses (writes
only to blocks satisfying `W`). -/
structure Closed {σ : Type} (b : Bus σ) (W : UInt8 → Prop) (P : {α : Type} → M σ α → Prop) : Prop where
  pure : ∀ {α : Type} (a : α), P (Pure.pure a : M σ α)
  throw : ∀ {α : Type} (e : Err), (∀ x, e ≠ .bus x) → P (M.throw e : M σ α)
  bind : ∀ {α β : Type} (m : M σ α) (f : α → M σ β), P m → (∀ a, P (f a)) → P (m >>= f)
  read : ∀ a blk n, P (b.read a blk n)
  write : ∀ a blk bs, W blk → P (b.write a blk bs)

section
variable {σ : Type} {b : Bus σ} {sn : Sn} {P : {α : Type} → M σ α → Prop}

theorem Closed.ite {W : UInt8 → Prop} {α : Type} (_h : Closed b W P) (c : Prop) [Decidable c] (m m' : M σ α)
    (h1 : P m) (h2 : P m') : P (if c then m else m') := by split <;> assumption

macro "closed_tac" h:ident : tactic => `(tactic|
  repeat (first
    | exact ($h).pure _
    | exact ($h).throw _ (fun _ => by nofun)
    | exact ($h).read _ _ _
    | exact ($h).write _ _ _ (Or.inl rfl)
    | exact ($h).write _ _ _ (Or.inr (Or.inl rfl))
    | exact ($h).write _ _ _ (Or.inr (Or.inr rfl))
    | assumption
    | (refine ($h).bind _ _ ?_ ?_)
    | (refine ($h).ite _ _ _ ?_ ?_)
    | intro _
    | (apply_assumption)))

variable (h : Closed b (OwnBlock sn) P)
include h

theorem closed_snPort (s : Sn) : P (b.snPort s) := by unfold Bus.snPort; closed_tac h
theorem closed_snSr (s : Sn) : P (b.snSr s) := by unfold Bus.snSr; closed_tac h
theorem closed_sipr : P b.sipr := by unfold Bus.sipr; closed_tac h
theorem closed_snRxRsr : P (b.snRxRsr sn) := by unfold Bus.snRxRsr; closed_tac h
theorem closed_snRxRd : P (b.snRxRd sn) := by unfold Bus.snRxRd; closed_tac h
theorem closed_snTxFsr : P (b.snTxFsr sn) := by unfold Bus.snTxFsr; closed_tac h
theorem closed_snTxWr : P (b.snTxWr sn) := by unfold Bus.snTxWr; closed_tac h
theorem closed_snTxPtrs : P (b.snTxPtrs sn) := by unfold Bus.snTxPtrs; closed_tac h
theorem closed_setSnCr (v) : P (b.setSnCr sn v) := by unfold Bus.setSnCr; closed_tac h
theorem closed_setSnMr (v) : P (b.setSnMr sn v) := by unfold Bus.setSnMr; closed_tac h
theorem closed_setSnPort (v) : P (b.setSnPort sn v) := by unfold Bus.setSnPort; closed_tac h
theorem closed_setSnDest (v) : P (b.setSnDest sn v) := by unfold Bus.setSnDest; closed_tac h
theorem closed_setSnRxRd (v) : P (b.setSnRxRd sn v) := by unfold Bus.setSnRxRd; closed_tac h
theorem closed_setSnTxWr (v) : P (b.setSnTxWr sn v) := by unfold Bus.setSnTxWr; closed_tac h
theorem closed_snRxBuf (p n) : P (b.snRxBuf sn p n) := by unfold Bus.snRxBuf; closed_tac h
theorem closed_setSnTxBuf (p v) : P (b.setSnTxBuf sn p v) := by unfold Bus.setSnTxBuf; closed_tac h

theorem closed_portIsUniqueLoop (port : UInt16) (l : List Sn) : P (portIsUniqueLoop b port l) := by
  have h1 := closed_snPort h; have h2 := closed_snSr h
  induction l with
  | nil => exact h.pure _
  | cons s l ih => unfold portIsUniqueLoop; closed_tac h

theorem closed_portIsUnique (s : Sn) (port : UInt16) : P (portIsUnique b s port) :=
  closed_portIsUniqueLoop h _ _

theorem closed_debugAssert (dbg : Bool) (c : M σ Bool) (hc : P c) : P (debugAssert dbg c) := by
  unfold debugAssert; closed_tac h

theorem closed_notUdpInitMacraw : P (notUdpInitMacraw b sn) := by
  have h2 := closed_snSr h
  unfold notUdpInitMacraw; closed_tac h

theorem closed_srIsUdp : P (srIsUdp b sn) := by
  have h2 := closed_snSr h
  unfold srIsUdp; closed_tac h

theorem closed_waitStatus (s : SocketStatus) (fuel : Nat) : P (waitStatus b sn s fuel) := by
  have h2 := closed_snSr h
  induction fuel with
  | zero => exact h.throw _ (fun _ => by nofun)
  | succ n ih => unfold waitStatus; closed_tac h

theorem closed_localAddr : P (localAddr b sn) := by
  have h1 := closed_snPort h; have h2 := closed_sipr h
  unfold localAddr; closed_tac h
theorem closed_close : P (Hl.close b sn) := closed_setSnCr h _
theorem closed_isStateClosed : P (isStateClosed b sn) := by
  have h2 := closed_snSr h
  unfold isStateClosed; closed_tac h
theorem closed_isStateTcp : P (isStateTcp b sn) := by
  have h2 := closed_snSr h
  unfold isStateTcp; closed_tac h
theorem closed_isStateUdp : P (isStateUdp b sn) := by
  have h2 := closed_snSr h
  unfold isStateUdp; closed_tac h

macro "sock_tac" h:ident : tactic => `(tactic|
  repeat (first
    | exact closed_snRxRsr $h
    | exact closed_snRxRd $h
    | exact closed_snTxFsr $h
    | exact closed_snTxWr $h
    | exact closed_snTxPtrs $h
    | exact closed_setSnCr $h _
    | exact closed_setSnMr $h _
    | exact closed_setSnPort $h _
    | exact closed_setSnDest $h _
    | exact closed_setSnRxRd $h _
    | exact closed_setSnTxWr $h _
    | exact closed_snRxBuf $h _ _
    | exact closed_setSnTxBuf $h _ _
    | exact closed_waitStatus $h _ _
    | exact closed_debugAssert $h _ _ (closed_portIsUnique $h _ _)
    | exact closed_debugAssert $h _ _ (closed_notUdpInitMacraw $h)
    | exact closed_debugAssert $h _ _ (closed_srIsUdp $h)
    | exact ($h).pure _
    | exact ($h).throw _ (fun _ => by nofun)
    | assumption
    | (refine ($h).bind _ _ ?_ ?_)
    | (refine ($h).ite _ _ _ ?_ ?_)
    | intro _))

theorem closed_tcpConnect (dbg fuel port addr) : P (tcpConnect dbg fuel b sn port addr) := by
  unfold tcpConnect; sock_tac h
theorem closed_tcpListen (dbg fuel port) : P (tcpListen dbg fuel b sn port) := by
  unfold tcpListen; sock_tac h
theorem closed_tcpRead (dbg n) : P (tcpRead dbg b sn n) := by
  unfold tcpRead; sock_tac h
theorem closed_tcpWrite (dbg bs) : P (tcpWrite dbg b sn bs) := by
  unfold tcpWrite; sock_tac h
theorem closed_tcpDisconnect (dbg) : P (tcpDisconnect dbg b sn) := by
  unfold tcpDisconnect; sock_tac h
theorem closed_tcpReader (dbg) : P (tcpReader dbg b sn) := by
  unfold tcpReader; sock_tac h
theorem closed_socketWriter : P (socketWriter b sn) := by
  unfold socketWriter; sock_tac h
theorem closed_udpBind (dbg fuel port) : P (udpBind dbg fuel b sn port) := by
  unfold udpBind; sock_tac h
theorem closed_udpRecvFrom (dbg n) : P (udpRecvFrom dbg b sn n) := by
  unfold udpRecvFrom; sock_tac h
theorem closed_udpPeekFrom (dbg n) : P (udpPeekFrom dbg b sn n) := by
  unfold udpPeekFrom; sock_tac h
theorem closed_udpPeekFromHeader (dbg) : P (udpPeekFromHeader dbg b sn) := by
  unfold udpPeekFromHeader; sock_tac h
theorem closed_udpSend (dbg bs) : P (udpSend dbg b sn bs) := by
  unfold udpSend; sock_tac h
theorem closed_udpSendTo (dbg bs a) : P (udpSendTo dbg b sn bs a) := by
  have := closed_udpSend h dbg bs
  unfold udpSendTo; sock_tac h
theorem closed_udpSendIfFree (dbg bs) : P (udpSendIfFree dbg b sn bs) := by
  unfold udpSendIfFree; sock_tac h
theorem closed_udpSendToIfFree (dbg bs a) : P (udpSendToIfFree dbg b sn bs a) := by
  have := closed_udpSendIfFree h dbg bs
  unfold udpSendToIfFree; sock_tac h
theorem closed_udpReader (dbg) : P (udpReader dbg b sn) := by
  unfold udpReader; sock_tac h

theorem closed_tcpReaderRead (r : Ptrs) (hr : r.sn = sn) (n) : P (tcpReaderRead b r n) := by
  subst hr; unfold tcpReaderRead; sock_tac h
theorem closed_tcpReaderReadExact (r : Ptrs) (hr : r.sn = sn) (n) : P (tcpReaderReadExact b r n) := by
  subst hr; unfold tcpReaderReadExact; sock_tac h
theorem closed_tcpReaderDone (r : Ptrs) (hr : r.sn = sn) : P (tcpReaderDone b r) := by
  subst hr; unfold tcpReaderDone; sock_tac h
theorem closed_udpReaderDone (r : UdpReader) (hr : r.inner.sn = sn) : P (udpReaderDone b r) := by
  subst hr; unfold udpReaderDone; sock_tac h
theorem closed_writerWrite (r : Ptrs) (hr : r.sn = sn) (bs) : P (writerWrite b r bs) := by
  subst hr; unfold writerWrite; sock_tac h
theorem closed_writerWriteAll (r : Ptrs) (hr : r.sn = sn) (bs) : P (writerWriteAll b r bs) := by
  subst hr; unfold writerWriteAll; sock_tac h
theorem closed_writerSend (r : Ptrs) (hr : r.sn = sn) : P (writerSend b r) := by
  subst hr; unfold writerSend; sock_tac h
theorem closed_udpWriterSendTo (r : Ptrs) (hr : r.sn = sn) (dbg a) : P (udpWriterSendTo dbg b r a) := by
  have := closed_writerSend h r hr
  subst hr; unfold udpWriterSendTo; sock_tac h

end
end Verif

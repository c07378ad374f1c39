import Verif.Proof.Closed
import Verif.Spec.Call
import Verif.Spec.World
namespace Verif
open Hl Spec

/-- Every call has every property that is closed under sequencing and holds of the accesses. -/
theorem closed_call {σ : Type} {b : Bus σ} {sn : Sn} {P : {α : Type} → M σ α → Prop}
    (h : Closed b (OwnBlock sn) P) (dbg : Bool) (fuel : Nat) (c : Call) : P (c.exec dbg fuel b sn) := by
  cases c <;> refine h.bind _ _ ?_ (fun _ => h.pure _)
  · exact closed_localAddr h
  · exact closed_close h
  · exact closed_isStateClosed h
  · exact closed_isStateTcp h
  · exact closed_isStateUdp h
  · exact closed_tcpConnect h _ _ _ _
  · exact closed_tcpListen h _ _ _
  · exact closed_tcpRead h _ _
  · exact closed_tcpWrite h _ _
  · exact closed_tcpDisconnect h _
  · exact closed_tcpReader h _
  · exact closed_socketWriter h
  · exact closed_tcpReaderRead h _ rfl _
  · exact closed_tcpReaderReadExact h _ rfl _
  · exact closed_tcpReaderDone h _ rfl
  · exact closed_udpReaderDone h _ rfl
  · exact closed_writerWrite h _ rfl _
  · exact closed_writerWriteAll h _ rfl _
  · exact closed_writerSend h _ rfl
  · exact closed_udpWriterSendTo h _ rfl _ _
  · exact closed_udpBind h _ _ _
  · exact closed_udpRecvFrom h _ _
  · exact closed_udpPeekFrom h _ _
  · exact closed_udpPeekFromHeader h _
  · exact closed_udpSend h _ _
  · exact closed_udpSendTo h _ _ _
  · exact closed_udpSendIfFree h _ _
  · exact closed_udpSendToIfFree h _ _ _
  · exact closed_udpReader h _

/-- A reflexive and transitive relation between states that the accesses respect. -/
theorem closed_of_rel {σ : Type} {b : Bus σ} {W : UInt8 → Prop} (R : σ → σ → Prop) (refl : ∀ s, R s s)
    (trans : ∀ s t u, R s t → R t u → R s u) (hr : ∀ a blk n s, R s (b.read a blk n s).2)
    (hw : ∀ a blk bs s, W blk → R s (b.write a blk bs s).2) :
    Closed b W (fun m => ∀ s, R s (m s).2) where
  pure _ s := refl s
  throw _ _ s := refl s
  bind m f hm hf s := by
    rw [M.bind_run]
    have := hm s
    rcases e : m s with ⟨_ | a, s'⟩
    · rw [e] at this; exact this
    · rw [e] at this; exact trans _ _ _ this (hf a s')
  read := hr
  write a blk bs hW s := hw a blk bs s hW

theorem writeByte_frame (c : Chip) (k blk a : Nat) (x : UInt8)
    (h : blk = 4 * k + 1 ∨ blk = 4 * k + 2 ∨ blk = 4 * k + 3) :
    (∀ b a', b ≠ 4 * k + 1 → b ≠ 4 * k + 2 → b ≠ 4 * k + 3 → (c.writeByte blk a x).mem b a' = c.mem b a') ∧
    (∀ j, j ≠ k → (c.writeByte blk a x).received j = c.received j) ∧
    ((c.writeByte blk a x).sent.filter (·.sock ≠ k) = c.sent.filter (·.sock ≠ k)) := by
  have cmd : ∀ y, (∀ b a', b ≠ 4 * k + 1 → b ≠ 4 * k + 2 → b ≠ 4 * k + 3 → (c.command k y).mem b a' = c.mem b a') ∧
      (∀ j, j ≠ k → (c.command k y).received j = c.received j) ∧
      ((c.command k y).sent.filter (·.sock ≠ k) = c.sent.filter (·.sock ≠ k)) := by
    intro y
    refine ⟨fun b a' h1 h2 h3 => ?_, fun j hj => ?_, ?_⟩
    · simp only [Chip.command, Chip.cmdOpen, Chip.cmdSend, Chip.cmdRecv, Chip.setStatus, Chip.setReg,
        Chip.resetReceived]
      repeat' split
      all_goals first | rfl | simp [Mem.store, Mem.setWord, h1]
    · simp only [Chip.command, Chip.cmdOpen, Chip.cmdSend, Chip.cmdRecv, Chip.setStatus, Chip.setReg,
        Chip.resetReceived]
      repeat' split
      all_goals first | rfl | simp [hj]
    · simp only [Chip.command, Chip.cmdOpen, Chip.cmdSend, Chip.cmdRecv, Chip.setStatus, Chip.setReg,
        Chip.resetReceived]
      repeat' split
      all_goals first | rfl | simp
  have st : ∀ a y, (∀ b a', b ≠ 4 * k + 1 → b ≠ 4 * k + 2 → b ≠ 4 * k + 3 → (c.mem.store blk a y) b a' = c.mem b a') := by
    intro a y b a' h1 h2 h3
    unfold Mem.store
    rw [if_neg (by omega)]
  unfold Chip.writeByte
  split
  · have : blk / 4 = k := by omega
    rw [this]
    repeat' split
    · exact cmd x
    · exact ⟨st _ _, fun _ _ => rfl, rfl⟩
    · exact ⟨fun _ _ _ _ _ => rfl, fun _ _ => rfl, rfl⟩
    · exact ⟨st _ _, fun _ _ => rfl, rfl⟩
  · exact ⟨st _ _, fun _ _ => rfl, rfl⟩

theorem writeBytes_frame (k blk : Nat) (h : blk = 4 * k + 1 ∨ blk = 4 * k + 2 ∨ blk = 4 * k + 3) (xs : Bytes) :
    ∀ (c : Chip) (a : Nat),
    (∀ b a', b ≠ 4 * k + 1 → b ≠ 4 * k + 2 → b ≠ 4 * k + 3 → (c.writeBytes blk a xs).mem b a' = c.mem b a') ∧
    (∀ j, j ≠ k → (c.writeBytes blk a xs).received j = c.received j) ∧
    ((c.writeBytes blk a xs).sent.filter (·.sock ≠ k) = c.sent.filter (·.sock ≠ k)) := by
  induction xs with
  | nil => exact fun c a => ⟨fun _ _ _ _ _ => rfl, fun _ _ => rfl, rfl⟩
  | cons x xs ih =>
    intro c a
    obtain ⟨i1, i2, i3⟩ := ih (c.writeByte blk (a % 65536) x) (a + 1)
    obtain ⟨f1, f2, f3⟩ := writeByte_frame c k blk (a % 65536) x h
    exact ⟨fun b a' h1 h2 h3 => (i1 b a' h1 h2 h3).trans (f1 b a' h1 h2 h3),
      fun j hj => (i2 j hj).trans (f2 j hj), i3.trans f3⟩

end Verif

import Verif.Proof.Cost
import Verif.Proof.Trace
import Verif.Model.Mqtt
import Verif.Model.Sntp
/-!
# Counting the accesses of the SNTP and MQTT clients
-/
namespace Verif.Thm
open Hl
open _root_.Verif.Spec (Access errorOf traceBus)

/-! ## Programs -/

/-- The program reads at most so often. -/
def RC {α : Type} : RProg α → Nat → Prop
  | .ret _ => fun _ => True
  | .read _ k => fun n => ∃ m, n = m + 1 ∧ ∀ r, RC (k r) m
  | .readExact _ k => fun n => ∃ m, n = m + 1 ∧ ∀ r, RC (k r) m
  | .seek _ k => fun n => ∀ r, RC (k r) n
  | .rewind k => fun n => RC k n
  | .streamLen k => fun n => ∀ r, RC (k r) n
  | .streamPosition k => fun n => ∀ r, RC (k r) n
  | .remain k => fun n => ∀ r, RC (k r) n

/-- The program writes at most so often. -/
def WC {α : Type} : WProg α → Nat → Prop
  | .ret _ => fun _ => True
  | .write _ k => fun n => ∃ m, n = m + 1 ∧ ∀ r, WC (k r) m
  | .writeAll _ k => fun n => ∃ m, n = m + 1 ∧ ∀ r, WC (k r) m
  | .seek _ k => fun n => ∀ r, WC (k r) n
  | .rewind k => fun n => WC k n
  | .streamLen k => fun n => ∀ r, WC (k r) n
  | .streamPosition k => fun n => ∀ r, WC (k r) n
  | .remain k => fun n => ∀ r, WC (k r) n

section
variable {α β : Type} {n k : Nat}

theorem RC.mono (m : RProg α) : ∀ {n k}, RC m n → n ≤ k → RC m k := by
  induction m with
  | ret _ => exact fun _ _ => trivial
  | read _ _ ih => rintro n k ⟨m, rfl, h⟩ hk; exact ⟨k - 1, by omega, fun r => ih r (h r) (by omega)⟩
  | readExact _ _ ih => rintro n k ⟨m, rfl, h⟩ hk; exact ⟨k - 1, by omega, fun r => ih r (h r) (by omega)⟩
  | seek _ _ ih => exact fun h hk r => ih r (h r) hk
  | rewind _ ih => exact fun h hk => ih h hk
  | streamLen _ ih => exact fun h hk r => ih r (h r) hk
  | streamPosition _ ih => exact fun h hk r => ih r (h r) hk
  | remain _ ih => exact fun h hk r => ih r (h r) hk

theorem WC.mono (m : WProg α) : ∀ {n k}, WC m n → n ≤ k → WC m k := by
  induction m with
  | ret _ => exact fun _ _ => trivial
  | write _ _ ih => rintro n k ⟨m, rfl, h⟩ hk; exact ⟨k - 1, by omega, fun r => ih r (h r) (by omega)⟩
  | writeAll _ _ ih => rintro n k ⟨m, rfl, h⟩ hk; exact ⟨k - 1, by omega, fun r => ih r (h r) (by omega)⟩
  | seek _ _ ih => exact fun h hk r => ih r (h r) hk
  | rewind _ ih => exact fun h hk => ih h hk
  | streamLen _ ih => exact fun h hk r => ih r (h r) hk
  | streamPosition _ ih => exact fun h hk r => ih r (h r) hk
  | remain _ ih => exact fun h hk r => ih r (h r) hk

theorem RC.bind {f : α → RProg β} (hf : ∀ a, RC (f a) k) (m : RProg α) : ∀ {n}, RC m n → RC (m >>= f) (n + k) := by
  show ∀ {n}, RC m n → RC (RProg.bind m f) (n + k)
  induction m with
  | ret r =>
    intro n _
    rcases r with e | a
    · trivial
    · exact RC.mono _ (hf a) (Nat.le_add_left _ _)
  | read _ _ ih => rintro n ⟨m, rfl, h⟩; exact ⟨m + k, by omega, fun r => ih r (h r)⟩
  | readExact _ _ ih => rintro n ⟨m, rfl, h⟩; exact ⟨m + k, by omega, fun r => ih r (h r)⟩
  | seek _ _ ih => exact fun h r => ih r (h r)
  | rewind _ ih => exact fun h => ih h
  | streamLen _ ih => exact fun h r => ih r (h r)
  | streamPosition _ ih => exact fun h r => ih r (h r)
  | remain _ ih => exact fun h r => ih r (h r)

theorem WC.bind {f : α → WProg β} (hf : ∀ a, WC (f a) k) (m : WProg α) : ∀ {n}, WC m n → WC (m >>= f) (n + k) := by
  show ∀ {n}, WC m n → WC (WProg.bind m f) (n + k)
  induction m with
  | ret r =>
    intro n _
    rcases r with e | a
    · trivial
    · exact WC.mono _ (hf a) (Nat.le_add_left _ _)
  | write _ _ ih => rintro n ⟨m, rfl, h⟩; exact ⟨m + k, by omega, fun r => ih r (h r)⟩
  | writeAll _ _ ih => rintro n ⟨m, rfl, h⟩; exact ⟨m + k, by omega, fun r => ih r (h r)⟩
  | seek _ _ ih => exact fun h r => ih r (h r)
  | rewind _ ih => exact fun h => ih h
  | streamLen _ ih => exact fun h r => ih r (h r)
  | streamPosition _ ih => exact fun h r => ih r (h r)
  | remain _ ih => exact fun h r => ih r (h r)

theorem RC.doRead (x : Nat) : RC (RProg.doRead x) 1 := ⟨0, rfl, fun _ => trivial⟩
theorem RC.doReadExact (x : Nat) : RC (RProg.doReadExact x) 1 := ⟨0, rfl, fun _ => trivial⟩
theorem RC.doSeek (x : SeekFrom) : RC (RProg.doSeek x) 0 := fun _ => trivial
theorem RC.doStreamPosition : RC RProg.doStreamPosition 0 := fun _ => trivial
theorem RC.doRemain : RC RProg.doRemain 0 := fun _ => trivial
theorem RC.ret (r : Except Err α) : RC (.ret r) n := trivial
theorem WC.doWriteAll (x : Bytes) : WC (WProg.doWriteAll x) 1 := ⟨0, rfl, fun _ => trivial⟩
theorem WC.ret (r : Except Err α) : WC (.ret r) n := trivial

end

section
variable {σ α β : Type} {b : Bus σ} {p : Access → Bool} {n k : Nat}

theorem cost_run (prog : RProg α) : ∀ {n} (_ : RC prog n) (s : σ × List Access) (r : Ptrs),
    (prog.run (tcpReaderOps (traceBus b)) (s, r)).2.1.2.countP p ≤ s.2.countP p + n := by
  induction prog with
  | ret _ => exact fun _ _ _ => Nat.le_add_right _ _
  | read x g ih =>
    rintro n ⟨m, rfl, h⟩ s r
    have h1 : ((tcpReaderOps (traceBus b)).read x (s, r)).2.1.2.countP p ≤ s.2.countP p + 1 := by
      have hc : Cost p 1 (tcpReaderRead (traceBus b) r x) := by
        unfold tcpReaderRead
        exact .mono (n := max (1 + 0) 0) (.ite (.bind (cost_snRxBuf _ _) fun _ => .pure _) (.pure _)) (by decide)
      have hc := hc s
      simp only [tcpReaderOps]
      rcases e : tcpReaderRead (traceBus b) r x s with ⟨_ | _, _⟩ <;> rw [e] at hc <;> exact hc
    have h2 := ih _ (h ((tcpReaderOps (traceBus b)).read x (s, r)).1) ((tcpReaderOps (traceBus b)).read x (s, r)).2.1 ((tcpReaderOps (traceBus b)).read x (s, r)).2.2
    have h3 : ((RProg.read x g).run (tcpReaderOps (traceBus b)) (s, r)).2.1.2.countP p ≤ ((tcpReaderOps (traceBus b)).read x (s, r)).2.1.2.countP p + m := h2
    omega
  | readExact x g ih =>
    rintro n ⟨m, rfl, h⟩ s r
    have h1 : ((tcpReaderOps (traceBus b)).readExact x (s, r)).2.1.2.countP p ≤ s.2.countP p + 1 := by
      have hc : Cost p 1 (tcpReaderReadExact (traceBus b) r x) := by
        unfold tcpReaderReadExact
        exact .mono (n := max 0 (1 + 0)) (.ite (.throw _) (.bind (cost_snRxBuf _ _) fun _ => .pure _)) (by decide)
      have hc := hc s
      simp only [tcpReaderOps]
      rcases e : tcpReaderReadExact (traceBus b) r x s with ⟨_ | _, _⟩ <;> rw [e] at hc <;> exact hc
    have h2 := ih _ (h ((tcpReaderOps (traceBus b)).readExact x (s, r)).1) ((tcpReaderOps (traceBus b)).readExact x (s, r)).2.1 ((tcpReaderOps (traceBus b)).readExact x (s, r)).2.2
    have h3 : ((RProg.readExact x g).run (tcpReaderOps (traceBus b)) (s, r)).2.1.2.countP p ≤ ((tcpReaderOps (traceBus b)).readExact x (s, r)).2.1.2.countP p + m := h2
    omega
  | seek x g ih =>
    intro n h s r
    have e : ((tcpReaderOps (traceBus b)).seek x (s, r)).2.1 = s := by
      show (match r.seek x with
        | .ok r' => (.ok (), (s, r'))
        | .error e => (.error e, (s, r)) : Except Err Unit × (σ × List Access) × Ptrs).2.1 = s
      rcases r.seek x with _ | _ <;> rfl
    have h2 := ih _ (h ((tcpReaderOps (traceBus b)).seek x (s, r)).1) ((tcpReaderOps (traceBus b)).seek x (s, r)).2.1 ((tcpReaderOps (traceBus b)).seek x (s, r)).2.2
    have h3 : ((RProg.seek x g).run (tcpReaderOps (traceBus b)) (s, r)).2.1.2.countP p ≤ ((tcpReaderOps (traceBus b)).seek x (s, r)).2.1.2.countP p + n := h2
    rw [e] at h3
    exact h3
  | rewind g ih => exact fun h s r => ih h s r.rewind
  | streamLen g ih => exact fun h s r => ih _ (h _) s r
  | streamPosition g ih => exact fun h s r => ih _ (h _) s r
  | remain g ih => exact fun h s r => ih _ (h _) s r

theorem cost_wrun (prog : WProg α) : ∀ {n} (_ : WC prog n) (s : σ × List Access) (r : Ptrs),
    (prog.run (writerOps (traceBus b)) (s, r)).2.1.2.countP p ≤ s.2.countP p + n := by
  induction prog with
  | ret _ => exact fun _ _ _ => Nat.le_add_right _ _
  | write x g ih =>
    rintro n ⟨m, rfl, h⟩ s r
    have h1 : ((writerOps (traceBus b)).write x (s, r)).2.1.2.countP p ≤ s.2.countP p + 1 := by
      have hc : Cost p 1 (writerWrite (traceBus b) r x) := by
        unfold writerWrite
        exact .mono (n := max (1 + 0) 0) (.ite (.bind (cost_setSnTxBuf _ _) fun _ => .pure _) (.pure _)) (by decide)
      have hc := hc s
      simp only [writerOps]
      rcases e : writerWrite (traceBus b) r x s with ⟨_ | _, _⟩ <;> rw [e] at hc <;> exact hc
    have h2 := ih _ (h ((writerOps (traceBus b)).write x (s, r)).1) ((writerOps (traceBus b)).write x (s, r)).2.1 ((writerOps (traceBus b)).write x (s, r)).2.2
    have h3 : ((WProg.write x g).run (writerOps (traceBus b)) (s, r)).2.1.2.countP p ≤ ((writerOps (traceBus b)).write x (s, r)).2.1.2.countP p + m := h2
    omega
  | writeAll x g ih =>
    rintro n ⟨m, rfl, h⟩ s r
    have h1 : ((writerOps (traceBus b)).writeAll x (s, r)).2.1.2.countP p ≤ s.2.countP p + 1 := by
      have hc : Cost p 1 (writerWriteAll (traceBus b) r x) := by
        unfold writerWriteAll
        exact .mono (n := max 0 (1 + 0)) (.ite (.throw _) (.bind (cost_setSnTxBuf _ _) fun _ => .pure _)) (by decide)
      have hc := hc s
      simp only [writerOps]
      rcases e : writerWriteAll (traceBus b) r x s with ⟨_ | _, _⟩ <;> rw [e] at hc <;> exact hc
    have h2 := ih _ (h ((writerOps (traceBus b)).writeAll x (s, r)).1) ((writerOps (traceBus b)).writeAll x (s, r)).2.1 ((writerOps (traceBus b)).writeAll x (s, r)).2.2
    have h3 : ((WProg.writeAll x g).run (writerOps (traceBus b)) (s, r)).2.1.2.countP p ≤ ((writerOps (traceBus b)).writeAll x (s, r)).2.1.2.countP p + m := h2
    omega
  | seek x g ih =>
    intro n h s r
    have e : ((writerOps (traceBus b)).seek x (s, r)).2.1 = s := by
      show (match r.seek x with
        | .ok r' => (.ok (), (s, r'))
        | .error e => (.error e, (s, r)) : Except Err Unit × (σ × List Access) × Ptrs).2.1 = s
      rcases r.seek x with _ | _ <;> rfl
    have h2 := ih _ (h ((writerOps (traceBus b)).seek x (s, r)).1) ((writerOps (traceBus b)).seek x (s, r)).2.1 ((writerOps (traceBus b)).seek x (s, r)).2.2
    have h3 : ((WProg.seek x g).run (writerOps (traceBus b)) (s, r)).2.1.2.countP p ≤ ((writerOps (traceBus b)).seek x (s, r)).2.1.2.countP p + n := h2
    rw [e] at h3
    exact h3
  | rewind g ih => exact fun h s r => ih h s r.rewind
  | streamLen g ih => exact fun h s r => ih _ (h _) s r
  | streamPosition g ih => exact fun h s r => ih _ (h _) s r
  | remain g ih => exact fun h s r => ih _ (h _) s r

theorem cost_onTcpReader (r : Ptrs) {prog : RProg α} (h : RC prog n) : Cost p n (onTcpReader (traceBus b) r prog) := fun s => by
  have := cost_run (b := b) (p := p) prog h s r
  unfold onTcpReader
  rcases e : prog.run (tcpReaderOps (traceBus b)) (s, r) with ⟨e' | a, s', r'⟩ <;> rw [e] at this <;> exact this
theorem cost_onUdpReader (u : UdpReader) {prog : RProg α} (h : RC prog n) : Cost p n (onUdpReader (traceBus b) u prog) := fun s => by
  have := cost_run (b := b) (p := p) prog h s u.inner
  unfold onUdpReader
  rw [udpReader_run_any]
  rcases e : prog.run (tcpReaderOps (traceBus b)) (s, u.inner) with ⟨e' | a, s', r'⟩ <;> rw [e] at this <;> exact this
theorem cost_onWriter (r : Ptrs) {prog : WProg α} (h : WC prog n) : Cost p n (onWriter (traceBus b) r prog) := fun s => by
  have := cost_wrun (b := b) (p := p) prog h s r
  unfold onWriter
  rcases e : prog.run (writerOps (traceBus b)) (s, r) with ⟨e' | a, s', r'⟩ <;> rw [e] at this <;> exact this
theorem cost_writerSend (r : Ptrs) : Cost p 2 (writerSend (traceBus b) r) := by
  unfold writerSend; exact .bind (cost_setSnTxWr _) fun _ => cost_setSnCr _
theorem cost_tcpReaderDone (r : Ptrs) : Cost p 2 (tcpReaderDone (traceBus b) r) := by
  unfold tcpReaderDone; exact .bind (cost_setSnRxRd _) fun _ => cost_setSnCr _
theorem cost_udpReaderDone (u : UdpReader) : Cost p 2 (udpReaderDone (traceBus b) u) := by
  unfold udpReaderDone; exact .bind (cost_setSnRxRd _) fun _ => cost_setSnCr _
theorem cost_socketWriter (sn : Sn) : Cost p 1 (socketWriter (traceBus b) sn) := by
  unfold socketWriter; exact .mono (n := 1 + 0) (.bind cost_snTxPtrs fun _ => .pure _) (by decide)

theorem cost_tcpReader (dbg : Bool) (sn : Sn) : Cost p (2 + if dbg then 1 else 0) (tcpReader dbg (traceBus b) sn) := by
  unfold tcpReader
  refine .mono (n := (if dbg then 1 else 0) + (1 + max 0 (1 + 0))) ?_ (by cases dbg <;> decide)
  exact .bind (cost_debugAssert _ cost_notUdpInitMacraw) fun _ => .bind cost_snRxRsr fun _ => .ite (.throw _) (.bind cost_snRxRd fun _ => .pure _)
theorem cost_udpReader (dbg : Bool) (sn : Sn) : Cost p (3 + if dbg then 1 else 0) (udpReader dbg (traceBus b) sn) := by
  unfold udpReader
  refine .mono (n := (if dbg then 1 else 0) + (1 + max 0 (1 + (1 + 0)))) ?_ (by cases dbg <;> decide)
  exact .bind (cost_debugAssert _ cost_srIsUdp) fun _ => .bind cost_snRxRsr fun _ => .ite (.throw _) (.bind cost_snRxRd fun _ => .bind (cost_snRxBuf _ _) fun _ => .pure _)
theorem cost_snIr (sn : Sn) : Cost p 1 ((traceBus b).snIr sn) := by unfold Bus.snIr; exact .mono (n := 1 + 0) (.bind (.read _ _ _) fun _ => .pure _) (by decide)
theorem cost_setSnIr (sn : Sn) (v) : Cost p 1 ((traceBus b).setSnIr sn v) := by unfold Bus.setSnIr; exact .write _ _ _
theorem cost_setSnImr (sn : Sn) (v) : Cost p 1 ((traceBus b).setSnImr sn v) := by unfold Bus.setSnImr; exact .write _ _ _
theorem cost_simr : Cost p 1 (traceBus b).simr := by unfold Bus.simr; exact .mono (n := 1 + 0) (.bind (.read _ _ _) fun _ => .pure _) (by decide)
theorem cost_setSimr (v) : Cost p 1 ((traceBus b).setSimr v) := by unfold Bus.setSimr; exact .write _ _ _
theorem cost_snRxbufSize (sn : Sn) : Cost p 1 ((traceBus b).snRxbufSize sn) := by
  unfold Bus.snRxbufSize; exact .mono (n := 1 + 0) (.bind (.read _ _ _) fun _ => .pure _) (by decide)

/-! ## MQTT -/
open Mqtt

theorem rc_skip (x : UInt8) : RC (skipProperties x) 0 := by
  unfold skipProperties; split
  · exact .doSeek _
  · exact .ret _
theorem rc_connAck (st : State) (x : UInt16) : RC (recvConnAck st x) 2 := by
  unfold recvConnAck; split
  · exact .ret _
  · exact .bind (n := 1) (k := 1) (fun _ => .bind (n := 0) (k := 1) (fun _ => .ret _) _ (.doSeek _)) _ (.doReadExact _)
theorem rc_ack (f : UInt16 → UInt8 → RecvOut) : RC (recvAck f) 2 := by
  refine .bind (n := 1) (k := 1) (fun buf => ?_) _ (.doRead _)
  split
  · exact .bind (n := 0) (k := 1) (fun _ => .bind (n := 1) (k := 0) (fun _ => .ret _) _ (.doReadExact _)) _ (rc_skip _)
  · exact .ret _
theorem rc_publish (x : UInt16) : RC (recvPublish x) 2 :=
  .bind (n := 1) (k := 1) (fun _ => .bind (n := 0) (k := 1) (fun _ => .bind (n := 0) (k := 1) (fun _ => .bind (n := 1) (k := 0) (fun _ =>
    .bind (n := 0) (k := 0) (fun _ => .bind (n := 0) (k := 0) (fun _ => .ret _) _ .doStreamPosition) _ (rc_skip _)) _ (.doReadExact _)) _ (.doSeek _)) _
    .doStreamPosition) _ (.doReadExact _)
theorem rc_body (st : State) (h : FixedHeader) : RC (recvBody st h) 2 := by
  unfold recvBody
  split
  · exact .ret _
  · exact rc_connAck _ _
  · exact rc_ack _
  · exact rc_ack _
  · exact rc_publish _
  · exact .bind (n := 0) (k := 2) (fun _ => .ret _) _ (.doSeek _)
theorem rc_recv (dbg : Bool) (st : State) : RC (recvProg dbg st) 3 := by
  refine .bind (n := 1) (k := 2) (fun buf => ?_) _ (.doRead _)
  split
  · exact .ret _
  · exact .ret _
  · exact .ret _
  · refine .bind (n := 0) (k := 2) (fun _ => .bind (n := 0) (k := 2) (fun _ => ?_) _ .doRemain) _ (.doSeek _)
    split
    · exact .ret _
    · exact rc_body _ _

theorem wc_vbi (x : UInt32) : WC (writeVbi x) 1 := by
  unfold writeVbi; split
  · exact .ret _
  · exact .doWriteAll _
theorem wc_publish (topic payload : Bytes) : WC (publishProg topic payload) 6 :=
  .bind (n := 1) (k := 5) (fun _ => .bind (n := 1) (k := 4) (fun _ => .bind (n := 1) (k := 3) (fun _ => .bind (n := 1) (k := 2) (fun _ =>
    .bind (n := 1) (k := 1) (fun _ => .doWriteAll _) _ (.doWriteAll _)) _ (.doWriteAll _)) _ (.doWriteAll _)) _ (wc_vbi _)) _ (.doWriteAll _)
theorem wc_subscribe (dbg : Bool) (f : Bytes) (i : UInt16) : WC (subscribeProg dbg f i) 6 := by
  unfold subscribeProg; split
  · exact .ret _
  · exact .bind (n := 1) (k := 5) (fun _ => .bind (n := 1) (k := 4) (fun _ => .bind (n := 1) (k := 3) (fun _ => .bind (n := 1) (k := 2) (fun _ =>
      .bind (n := 1) (k := 1) (fun _ => .doWriteAll _) _ (.doWriteAll _)) _ (.doWriteAll _)) _ (.doWriteAll _)) _ (wc_vbi _)) _ (.doWriteAll _)
theorem wc_unsubscribe (dbg : Bool) (f : Bytes) (i : UInt16) : WC (unsubscribeProg dbg f i) 5 := by
  unfold unsubscribeProg; split
  · exact .ret _
  · exact .bind (n := 1) (k := 4) (fun _ => .bind (n := 1) (k := 3) (fun _ => .bind (n := 1) (k := 2) (fun _ => .bind (n := 1) (k := 1) (fun _ =>
      .doWriteAll _) _ (.doWriteAll _)) _ (.doWriteAll _)) _ (wc_vbi _)) _ (.doWriteAll _)
theorem wc_connect (i : Option Bytes) (x : UInt16) : WC (connectProg i x) 2 := by
  refine .bind (n := 1) (k := 1) (fun _ => ?_) _ (.doWriteAll _)
  split
  · exact .doWriteAll _
  · exact .ret _

/-- With a client. -/
def CM {C : Type} (p : Access → Bool) (n : Nat) (m : M ((σ × List Access) × C) α) : Prop := ∀ t, (m t).2.1.2.countP p ≤ t.1.2.countP p + n

variable {C : Type}

theorem CM.mono {m : M ((σ × List Access) × C) α} (h : CM p n m) (hk : n ≤ k) : CM p k m := fun t => by have := h t; omega
theorem CM.pure (a : α) : CM p n (Pure.pure a : M ((σ × List Access) × C) α) := fun _ => Nat.le_add_right _ _
theorem CM.ofExcept (r : Except Err α) : CM p 0 (M.ofExcept r : M ((σ × List Access) × C) α) := fun _ => Nat.le_add_right _ _
theorem CM.bind {m : M ((σ × List Access) × C) α} {f : α → M ((σ × List Access) × C) β} (h : CM p n m) (hf : ∀ a, CM p k (f a)) :
    CM p (n + k) (m >>= f) := fun t => by
  rw [M.bind_run]
  have := h t
  rcases e : m t with ⟨e' | a, t'⟩ <;> rw [e] at this
  · show t'.1.2.countP p ≤ _
    have : t'.1.2.countP p ≤ _ := this
    omega
  · show (f a t').2.1.2.countP p ≤ _
    have h2 := hf a t'
    have : t'.1.2.countP p ≤ _ := this
    omega
theorem CM.ite {c : Prop} [Decidable c] {m m' : M ((σ × List Access) × C) α} (h : CM p n m) (h' : CM p n m') : CM p n (if c then m else m') := by
  split
  · exact h
  · exact h'
theorem CM.onBus {m : M (σ × List Access) α} (h : Cost p n m) : CM p n (Mqtt.onBus m) := fun t => h t.1
theorem CM.getC : CM p 0 (Mqtt.getC : M ((σ × List Access) × Mqtt.Client) _) := fun _ => Nat.le_refl _
theorem CM.modC (f : Mqtt.Client → Mqtt.Client) : CM p 0 (Mqtt.modC f : M ((σ × List Access) × Mqtt.Client) _) := fun _ => Nat.le_refl _

theorem cost_mapW5500 {m : M (σ × List Access) α} (h : Cost p n m) : Cost p n (Mqtt.mapW5500 m) := fun t => by
  have := h t
  unfold Mqtt.mapW5500
  rcases e : m t with ⟨e' | a, t'⟩ <;> rw [e] at this
  · cases e' <;> exact this
  · exact this
theorem cost_tryReader (dbg : Bool) (sn : Sn) : Cost p (2 + if dbg then 1 else 0) (tryReader dbg (traceBus b) sn) := fun t => by
  have := cost_tcpReader (b := b) (p := p) dbg sn t
  unfold tryReader
  rcases e : tcpReader dbg (traceBus b) sn t with ⟨e' | a, t'⟩ <;> rw [e] at this
  · cases e' <;> exact this
  · exact this
theorem cost_sendPacket (r : Ptrs) {prog : WProg Unit} (h : WC prog n) : Cost p (n + 2) (sendPacket (traceBus b) r prog) :=
  .bind (cost_onWriter r h) fun _ => cost_writerSend _

theorem cm_checkTimeout (dbg : Bool) (secs : UInt32) : CM (σ := σ) p 0 (checkTimeout dbg secs) := by
  refine .bind (n := 0) (k := 0) .getC fun _ => .bind (n := 0) (k := 0) (.ofExcept _) fun e => ?_
  split
  · exact .ite (.bind (n := 0) (k := 0) (.modC _) fun _ => .pure _) (.pure _)
  · exact .pure _
theorem cm_recvFinish (r : Ptrs) (o : RecvOut) : CM p 2 (recvFinish (traceBus b) r o) := by
  have hd : CM p 2 (Mqtt.onBus (tcpReaderDone (traceBus b) r)) := .onBus (cost_tcpReaderDone r)
  unfold recvFinish
  split
  · exact .pure _
  · exact .bind (n := 0) (k := 2) (.modC _) fun _ => .pure _
  · exact .pure _
  · refine .bind (n := 2) (k := 0) hd fun _ => ?_
    split
    · exact .bind (n := 0) (k := 0) (.modC _) fun _ => .pure _
    · exact .ite (.bind (n := 0) (k := 0) (.modC _) fun _ => .pure _) (.bind (n := 0) (k := 0) (.modC _) fun _ => .pure _)
  · exact .bind (n := 2) (k := 0) hd fun _ => .pure _
  · exact .bind (n := 2) (k := 0) hd fun _ => .pure _
  · exact .pure _
  · exact .bind (n := 2) (k := 0) hd fun _ => .pure _
theorem cm_receive (dbg : Bool) (secs : UInt32) : CM p (7 + if dbg then 1 else 0) (receive dbg (traceBus b) secs) := by
  refine .mono (n := 0 + ((2 + if dbg then 1 else 0) + 5)) ?_ (by omega)
  refine .bind .getC fun c => .bind (.onBus (cost_tryReader _ _)) fun r => ?_
  split
  · exact (cm_checkTimeout _ _).mono (by decide)
  · refine .bind (n := 5) (k := 0) ?_ fun x => ?_
    · refine .bind (n := 0) (k := 5) .getC fun _ => .bind (n := 3) (k := 2) (.onBus (cost_mapW5500 (cost_onTcpReader _ (rc_recv _ _)))) fun x => ?_
      split
      · exact .pure _
      · exact cm_recvFinish _ _
    · split
      · exact .pure _
      · exact .pure _
      · exact cm_checkTimeout _ _
theorem cm_sendConnect (secs : UInt32) : CM p 6 (sendConnect (traceBus b) secs) := by
  refine .bind (n := 0) (k := 6) .getC fun c => .bind (n := 1) (k := 5) (.onBus (cost_snRxbufSize _)) fun _ =>
    .bind (n := 1) (k := 4) (.onBus (cost_socketWriter _)) fun _ =>
    .bind (n := 4) (k := 0) (.onBus (cost_mapW5500 (cost_sendPacket _ (wc_connect _ _)))) fun x => ?_
  split
  · exact .pure _
  · exact .bind (n := 0) (k := 0) (.modC _) fun _ => .pure _
/-- A call of a client that has opened its socket, after the look at the client. -/
theorem cm_opened (dbg : Bool) (secs : UInt32) (sn : Sn) : CM p (9 + if dbg then 1 else 0) (Mqtt.onBus ((traceBus b).snIr sn) >>= fun ir =>
    if ir.anyRaised then Mqtt.onBus ((traceBus b).setSnIr sn ir.raw) >>= fun _ => onInterrupt dbg (traceBus b) secs ir
    else receive dbg (traceBus b) secs) := by
  refine .mono (n := 1 + (1 + (7 + if dbg then 1 else 0))) ?_ (by omega)
  refine .bind (.onBus (cost_snIr _)) fun ir => .ite (.bind (.onBus (cost_setSnIr _ _)) fun _ => ?_) ((cm_receive _ _).mono (by omega))
  unfold onInterrupt
  refine .ite (.mono (n := 0 + 0) (.bind (.modC _) fun _ => .pure _) (by omega)) (.ite (.mono (n := 6 + 0) (.bind (cm_sendConnect _) fun _ => .pure _) (by omega)) ?_)
  exact .ite (.mono (n := 0 + 0) (.bind (.modC _) fun _ => .pure _) (by omega)) (cm_receive _ _)

end
end Verif.Thm

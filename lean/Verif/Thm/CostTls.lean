import Verif.Thm.CostClients
import Verif.Proof.X
import Verif.Thm.TlsWitness
import Verif.Model.Tls.Client
/-!
# C132: the number of accesses for sending application data over TLS

`inDebug` and the rest are in `Spec/Cost.lean`.  The accesses of a call are `(call ((s, []), c)).2.1.2`.
-/
namespace Verif.Tls
open Verif Hl
open _root_.Verif.Spec (Access traceBus)
open Verif.Thm (Cost cost_snTxFsr cost_snTxWr cost_setSnTxBuf cost_setSnTxWr cost_setSnCr cost_socketWriter cost_writerSend)

section
variable {σ ε ε' τ α β : Type} {b : Bus σ} {p : Access → Bool} {n k : Nat} {x : Crypto}

/-- At most `n` accesses with `p`. -/
def XN (p : Access → Bool) (n : Nat) (m : X ε (σ × List Access) α) : Prop := ∀ t, (m t).2.2.countP p ≤ t.2.countP p + n
/-- The same with a second component of the state. -/
def XM (p : Access → Bool) (n : Nat) (m : X ε ((σ × List Access) × τ) α) : Prop := ∀ t, (m t).2.1.2.countP p ≤ t.1.2.countP p + n

theorem XN.mono {m : X ε (σ × List Access) α} (h : XN p n m) (hk : n ≤ k) : XN p k m := fun t => Nat.le_trans (h t) (by omega)
theorem XN.pure (a : α) : XN p n (Pure.pure a : X ε (σ × List Access) α) := fun _ => Nat.le_add_right _ _
theorem XN.ofExcept (a) : XN p n (X.ofExcept a : X ε (σ × List Access) α) := fun _ => Nat.le_add_right _ _
theorem XN.ofCipher (a : Except Err α) : XN p 0 (Tls.ofCipher a : X ε (σ × List Access) α) := by cases a <;> exact fun _ => Nat.le_refl _
theorem XN.unwrapKey (a : Option α) : XN p 0 (Tls.unwrapKey a : X ε (σ × List Access) α) := by cases a <;> exact fun _ => Nat.le_refl _
theorem XN.bind {m : X ε (σ × List Access) α} {f : α → X ε (σ × List Access) β} (h : XN p n m) (hf : ∀ a, XN p k (f a)) : XN p (n + k) (m >>= f) := fun t => by
  rw [X.bind_run]
  have := h t
  rcases e : m t with ⟨e' | a, t'⟩ <;> rw [e] at this
  · exact Nat.le_trans this (by omega)
  · have h2 := hf a t'
    have h3 : t'.2.countP p ≤ _ := this
    show (f a t').2.2.countP p ≤ _
    omega
theorem XN.ofM {m : M (σ × List Access) α} (h : Cost p n m) : XN p n (X.ofM m) := fun t => by
  have := h t
  unfold X.ofM
  rcases e : m t with ⟨e' | a, t'⟩ <;> rw [e] at this <;> exact this

theorem XM.mono {m : X ε ((σ × List Access) × τ) α} (h : XM p n m) (hk : n ≤ k) : XM p k m := fun t => Nat.le_trans (h t) (by omega)
theorem XM.pure (a : α) : XM p n (Pure.pure a : X ε ((σ × List Access) × τ) α) := fun _ => Nat.le_add_right _ _
theorem XM.throw (e : ε) : XM p n (X.throw e : X ε ((σ × List Access) × τ) α) := fun _ => Nat.le_add_right _ _
theorem XM.bind {m : X ε ((σ × List Access) × τ) α} {f : α → X ε ((σ × List Access) × τ) β} (h : XM p n m) (hf : ∀ a, XM p k (f a)) :
    XM p (n + k) (m >>= f) := fun t => by
  rw [X.bind_run]
  have := h t
  rcases e : m t with ⟨e' | a, t'⟩ <;> rw [e] at this
  · exact Nat.le_trans this (by omega)
  · have h2 := hf a t'
    have h3 : t'.1.2.countP p ≤ _ := this
    show (f a t').2.1.2.countP p ≤ _
    omega
theorem XM.ite {c : Prop} [Decidable c] {m m' : X ε ((σ × List Access) × τ) α} (h : XM p n m) (h' : XM p n m') : XM p n (if c then m else m') := by
  split
  · exact h
  · exact h'
theorem XM.onFst {m : X ε (σ × List Access) α} (h : XN p n m) : XM (τ := τ) p n m.onFst := fun t => h t.1
theorem XM.mapErr {m : X ε ((σ × List Access) × τ) α} (h : XM p n m) (f : ε → ε') : XM p n (m.mapErr f) := fun t => by
  have := h t
  unfold X.mapErr
  rcases e : m t with ⟨e' | a, t'⟩ <;> rw [e] at this <;> exact this
theorem XN.mapErr {m : X ε (σ × List Access) α} (h : XN p n m) (f : ε → ε') : XN p n (m.mapErr f) := fun t => by
  have := h t
  unfold X.mapErr
  rcases e : m t with ⟨e' | a, t'⟩ <;> rw [e] at this <;> exact this
theorem XM.getC {f : Client x → X ε ((σ × List Access) × Client x) β} (h : ∀ c, XM p n (f c)) : XM p n (Tls.getC >>= f) := fun t => by
  rw [X.bind_run]
  exact h t.2 t
theorem XM.length {m : X ε ((σ × List Access) × τ) α} (h : XM (fun _ => true) n m) (s : σ) (c : τ) : (m ((s, []), c)).2.1.2.length ≤ n := by
  have : (m ((s, []), c)).2.1.2.countP (fun _ => true) ≤ ([] : List Access).countP (fun _ => true) + n := h ((s, []), c)
  rw [List.countP_true] at this
  exact Nat.le_trans this (by simp)

theorem cost_snTxBuf (sn : Sn) (a n) : Cost p 1 ((traceBus b).snTxBuf sn a n) := by
  unfold Bus.snTxBuf; exact .mono (n := 1 + 0) (.bind (.read _ _ _) fun _ => .pure _) (by decide)
theorem cost_writeAll (r : Ptrs) (buf : Bytes) : Cost p 1 (writerWriteAll (traceBus b) r buf) := by
  unfold writerWriteAll
  exact .mono (n := max 0 (1 + 0)) (.ite (.throw _) (.bind (cost_setSnTxBuf _ _) fun _ => .pure _)) (by decide)

theorem xn_chunks : ∀ (k : Nat) (g) (r : Ptrs) (data : Bytes), XN p k (writeChunks (traceBus b) k g r data)
  | 0, _, _, _ => .pure _
  | k + 1, _, _, _ => .mono (n := 0 + (1 + k)) (.bind (.ofCipher _) fun _ => .bind (.ofM (cost_writeAll _ _)) fun _ => xn_chunks k _ _ _) (by omega)

theorem xn_sendRecord (sn : Sn) (kn) (ct : ContentType) (data : Bytes) : XN p (6 + data.length / 16) (sendEncryptedRecord (traceBus b) sn kn ct data) := by
  unfold sendEncryptedRecord
  split
  · exact .ofExcept _
  · refine .mono (n := 1 + (1 + (0 + (data.length / 16 + (0 + (1 + (1 + 2))))))) ?_ (by omega)
    exact .bind (.ofM (cost_socketWriter _)) fun _ => .bind (.ofM (cost_writeAll _ _)) fun _ => .bind (.unwrapKey _) fun _ => .bind (xn_chunks _ _ _ _) fun _ =>
      .bind (.ofCipher _) fun _ => .bind (.ofM (cost_writeAll _ _)) fun _ => .bind (.ofM (cost_writeAll _ _)) fun _ => .ofM (cost_writerSend _)

theorem xn_blocks (sn : Sn) : ∀ (k : Nat) (g) (head : UInt16), XN p (2 * k) (encryptBlocksInplace (traceBus b) sn k g head)
  | 0, _, _ => .pure _
  | k + 1, _, _ => .mono (n := 1 + (0 + (1 + 2 * k))) (.bind (.ofM (cost_snTxBuf _ _ _)) fun _ => .bind (.ofCipher _) fun _ =>
      .bind (.ofM (cost_setSnTxBuf _ _)) fun _ => xn_blocks sn k _ _) (by omega)

theorem xn_encryptRecord (sn : Sn) (key nonce) (head tail : UInt16) (ct : ContentType) :
    XN p (6 + 2 * ((tail - head).toNat / 16)) (encryptRecordInplace (traceBus b) sn key nonce head tail ct) := by
  have e : ((tail - head) / 16).toNat = (tail - head).toNat / 16 := by rw [UInt16.toNat_div]; rfl
  refine .mono (n := 1 + (2 * ((tail - head) / 16).toNat + (1 + (0 + (1 + (1 + (1 + 1))))))) ?_ (by omega)
  exact .bind (.ofM (cost_setSnTxBuf _ _)) fun _ => .bind (xn_blocks _ _ _ _) fun _ => .bind (.ofM (cost_snTxBuf _ _ _)) fun _ => .bind (.ofCipher _) fun _ =>
    .bind (.ofM (cost_setSnTxBuf _ _)) fun _ => .bind (.ofM (cost_setSnTxBuf _ _)) fun _ => .bind (.ofM (cost_setSnTxWr _)) fun _ => .ofM (cost_setSnCr _)

/-- The sizes of the list of accesses: with a key schedule. -/
theorem xm_writerSend (r : Ptrs) : XM (τ := KeySchedule x) p (6 + 2 * ((r.ptr - r.head).toNat / 16)) (tlsWriterSend (traceBus b) r) := fun t => by
  unfold tlsWriterSend
  rw [X.bind_run]
  show ((unwrapKey t.2.clientKeyAndNonce >>= _ : X Err ((σ × List Access) × KeySchedule x) Unit) t).2.1.2.countP p ≤ _
  refine XM.mono (n := 0 + ((6 + 2 * ((r.ptr - r.head).toNat / 16)) + (0 + 0))) (.bind ?_ fun kn => .bind (.onFst (xn_encryptRecord _ _ _ _ _ _)) fun _ =>
    .bind ?_ fun _ => fun _ => Nat.le_refl _) (by omega) t
  · cases t.2.clientKeyAndNonce <;> exact fun _ => Nat.le_refl _
  · cases t.2.incrementWriteSeq <;> exact fun _ => Nat.le_refl _

/-- **C132** Sending application data, at once or with a writer: the number of accesses depends only on the number of whole blocks of 16 octets.  With
`write_all` there is one for every block and six more; a writer needs two to be made, one for every `write_all`, and, to encrypt and send what was
written, two for every block and six more. -/
theorem C132_tls (b : Bus σ) (c : Client x) (data : Bytes) (r : Ptrs) (s : σ) :
    (tlsWriteAll (traceBus b) data ((s, []), c)).2.1.2.length ≤ 6 + data.length / 16 ∧
    (tlsWriter (traceBus b) ((s, []), c)).2.1.2.length ≤ 2 ∧
    (writerWriteAll (traceBus b) r data (s, [])).2.2.length ≤ 1 ∧
    (tlsSend (traceBus b) r ((s, []), c)).2.1.2.length ≤ 6 + 2 * ((r.ptr - r.head).toNat / 16) := by
  refine ⟨XM.length (.getC fun c => .ite (.mapErr (.getC fun _ => .onFst (xn_sendRecord _ _ _ _)) _) (.throw _)) s c, XM.length (.getC fun c => .ite ?_ (.throw _)) s c,
    Thm.Cost.accesses (cost_writeAll _ _) s, ?_⟩
  · exact .mono (n := 1 + (1 + 0)) (.bind (.onFst (.mapErr (.ofM cost_snTxFsr) _)) fun _ => .ite (.throw _)
      (.bind (.onFst (.mapErr (.ofM cost_snTxWr) _)) fun _ => .pure _)) (by decide)
  · exact (xm_writerSend (p := fun _ => true) (b := b) r).length s c.ks
end

/-! ## The numbers are reached -/
namespace Witness

/-- Twenty octets, at once and with a writer. -/
example : c5.connected = true ∧ (tlsWriteAll (traceBus (Thm.fillBus 0x17)) (List.replicate 20 7) (((), []), c5)).2.1.2.length = 7 ∧
    (tlsWriter (traceBus (Thm.fillBus 0x17)) (((), []), c5)).2.1.2.length = 2 ∧
    (tlsSend (traceBus (Thm.fillBus 0x17)) ⟨.sn3, 0xFFFE, 200, 18⟩ (((), []), c5)).2.1.2.length = 8 := by decide +kernel

end Witness
end Verif.Tls

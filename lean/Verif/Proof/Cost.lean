import Verif.Spec.Trace
import Verif.Model.Hl.Udp
import Verif.Model.Hl.Prog
/-!
# Counting the accesses of a call
-/
namespace Verif.Thm
open Hl
open _root_.Verif.Spec (Access errorOf traceBus)

/-- `m` makes at most `n` accesses that satisfy `p`. -/
def Cost {σ α : Type} (p : Access → Bool) (n : Nat) (m : M (σ × List Access) α) : Prop := ∀ t, (m t).2.2.countP p ≤ t.2.countP p + n

section
variable {σ α β : Type} {p : Access → Bool} {n k : Nat}

theorem Cost.mono {m : M (σ × List Access) α} (h : Cost p n m) (hk : n ≤ k) : Cost p k m := fun t => by have := h t; omega
theorem Cost.pure (a : α) : Cost p 0 (Pure.pure a : M (σ × List Access) α) := fun _ => Nat.le_refl _
theorem Cost.throw (e : Err) : Cost p 0 (M.throw e : M (σ × List Access) α) := fun _ => Nat.le_refl _
theorem Cost.bind {m : M (σ × List Access) α} {f : α → M (σ × List Access) β} (h : Cost p n m) (hf : ∀ a, Cost p k (f a)) :
    Cost p (n + k) (m >>= f) := fun t => by
  rw [M.bind_run]
  have := h t
  rcases e : m t with ⟨e' | a, t'⟩ <;> rw [e] at this
  · show t'.2.countP p ≤ _
    have : t'.2.countP p ≤ _ := this
    omega
  · show (f a t').2.2.countP p ≤ _
    have h2 := hf a t'
    have : t'.2.countP p ≤ _ := this
    omega
theorem Cost.ite {c : Prop} [Decidable c] {m m' : M (σ × List Access) α} (h : Cost p n m) (h' : Cost p k m') : Cost p (max n k) (if c then m else m') := by
  split
  · exact h.mono (Nat.le_max_left _ _)
  · exact h'.mono (Nat.le_max_right _ _)
theorem Cost.read {b : Bus σ} (a : UInt16) (blk : UInt8) (len : Nat) : Cost p 1 ((traceBus b).read a blk len) := fun t => by
  show (t.2 ++ [_]).countP p ≤ _
  rw [List.countP_append]
  exact Nat.add_le_add_left (List.countP_le_length (l := [_])) _
theorem Cost.write {b : Bus σ} (a : UInt16) (blk : UInt8) (bs : Bytes) : Cost p 1 ((traceBus b).write a blk bs) := fun t => by
  show (t.2 ++ [_]).countP p ≤ _
  rw [List.countP_append]
  exact Nat.add_le_add_left (List.countP_le_length (l := [_])) _

end

/-- Go through a computation; the number of accesses is found on the way. -/
syntax "cost_tac" "[" term,* "]" : tactic
macro_rules
  | `(tactic| cost_tac [$ts,*]) => `(tactic|
    with_reducible repeat' (first
      $[| exact $ts]*
      | exact Cost.pure _ | exact Cost.throw _ | exact Cost.read _ _ _ | exact Cost.write _ _ _
      | apply Cost.bind | apply Cost.ite | intro _ | dsimp only))

section
variable {σ : Type} {b : Bus σ} {sn : Sn} {p : Access → Bool}

theorem cost_snPort (s : Sn) : Cost p 1 ((traceBus b).snPort s) := by unfold Bus.snPort; refine .mono (n := 1 + 0) ?_ (by decide); cost_tac []
theorem cost_snSr (s : Sn) : Cost p 1 ((traceBus b).snSr s) := by unfold Bus.snSr; refine .mono (n := 1 + 0) ?_ (by decide); cost_tac []
theorem cost_sipr : Cost p 1 (traceBus b).sipr := by unfold Bus.sipr; refine .mono (n := 1 + 0) ?_ (by decide); cost_tac []
theorem cost_snRxRsr : Cost p 1 ((traceBus b).snRxRsr sn) := by unfold Bus.snRxRsr; refine .mono (n := 1 + 0) ?_ (by decide); cost_tac []
theorem cost_snRxRd : Cost p 1 ((traceBus b).snRxRd sn) := by unfold Bus.snRxRd; refine .mono (n := 1 + 0) ?_ (by decide); cost_tac []
theorem cost_snTxFsr : Cost p 1 ((traceBus b).snTxFsr sn) := by unfold Bus.snTxFsr; refine .mono (n := 1 + 0) ?_ (by decide); cost_tac []
theorem cost_snTxWr : Cost p 1 ((traceBus b).snTxWr sn) := by unfold Bus.snTxWr; refine .mono (n := 1 + 0) ?_ (by decide); cost_tac []
theorem cost_snTxPtrs : Cost p 1 ((traceBus b).snTxPtrs sn) := by unfold Bus.snTxPtrs; refine .mono (n := 1 + 0) ?_ (by decide); cost_tac []
theorem cost_setSnCr (v) : Cost p 1 ((traceBus b).setSnCr sn v) := by unfold Bus.setSnCr; cost_tac []
theorem cost_setSnMr (v) : Cost p 1 ((traceBus b).setSnMr sn v) := by unfold Bus.setSnMr; cost_tac []
theorem cost_setSnPort (v) : Cost p 1 ((traceBus b).setSnPort sn v) := by unfold Bus.setSnPort; cost_tac []
theorem cost_setSnDest (v) : Cost p 1 ((traceBus b).setSnDest sn v) := by unfold Bus.setSnDest; cost_tac []
theorem cost_setSnRxRd (v) : Cost p 1 ((traceBus b).setSnRxRd sn v) := by unfold Bus.setSnRxRd; cost_tac []
theorem cost_setSnTxWr (v) : Cost p 1 ((traceBus b).setSnTxWr sn v) := by unfold Bus.setSnTxWr; cost_tac []
theorem cost_snRxBuf (a n) : Cost p 1 ((traceBus b).snRxBuf sn a n) := by unfold Bus.snRxBuf; refine .mono (n := 1 + 0) ?_ (by decide); cost_tac []
theorem cost_setSnTxBuf (a v) : Cost p 1 ((traceBus b).setSnTxBuf sn a v) := by unfold Bus.setSnTxBuf; cost_tac []

theorem cost_debugAssert (dbg : Bool) {c : M (σ × List Access) Bool} {n : Nat} (h : Cost p n c) : Cost p (if dbg then n else 0) (debugAssert dbg c) := by
  unfold debugAssert
  cases dbg
  · exact .pure _
  · exact .mono (n := n + max 0 0) (.bind h fun _ => .ite (.pure _) (.throw _)) (by simp)
theorem cost_notUdpInitMacraw : Cost p 1 (notUdpInitMacraw (traceBus b) sn) := .mono (n := 1 + 0) (.bind (cost_snSr _) fun _ => .pure _) (by decide)
theorem cost_srIsUdp : Cost p 1 (srIsUdp (traceBus b) sn) := .mono (n := 1 + 0) (.bind (cost_snSr _) fun _ => .pure _) (by decide)
theorem cost_portIsUniqueLoop (port : UInt16) : ∀ l : List Sn, Cost p (2 * l.length) (portIsUniqueLoop (traceBus b) port l)
  | [] => .pure _
  | s :: l => by
    have ih := cost_portIsUniqueLoop port l
    unfold portIsUniqueLoop
    refine .mono (n := 1 + max (1 + max (2 * l.length) 0) (2 * l.length)) ?_ (by simp only [List.length_cons]; omega)
    exact .bind (cost_snPort _) fun _ => .ite (.bind (cost_snSr _) fun _ => .ite ih (.pure _)) ih
theorem cost_portIsUnique (port : UInt16) : Cost p 14 (portIsUnique (traceBus b) sn port) :=
  .mono (cost_portIsUniqueLoop port _) (by cases sn <;> decide)

/-- The reads of the status do not count if `p` says so. -/
theorem cost_waitStatus (s : SocketStatus) (h : ∀ e, p ⟨false, sn.block, SnReg.SR.addr, 1, e⟩ = false) :
    ∀ fuel, Cost p 0 (waitStatus (traceBus b) sn s fuel)
  | 0 => .throw _
  | fuel + 1 => by
    have ih := cost_waitStatus s h fuel
    unfold waitStatus
    refine .mono (n := 0 + max 0 0) (.bind ?_ fun _ => .ite (.pure _) ih) (by decide)
    unfold Bus.snSr
    refine .mono (n := 0 + 0) (.bind (fun t => ?_) fun _ => .pure _) (by decide)
    show (t.2 ++ [_]).countP p ≤ _
    rw [List.countP_append, List.countP_singleton, h]
    exact Nat.le_refl _

end
end Verif.Thm

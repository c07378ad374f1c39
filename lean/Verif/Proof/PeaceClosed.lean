import Verif.Proof.Peace
import Verif.Proof.Closed
import Verif.Proof.Call
/-!
# No access of the driver raises an interrupt
-/
namespace Verif
open Spec (World worldBus Chip Mem EnvStep)

theorem store_ir (m : Mem) (b a k : Nat) (x : UInt8) (h : b ≠ 4 * k + 1 ∨ a ≠ 2) : (m.store b a x) (4 * k + 1) 2 = m (4 * k + 1) 2 := by
  unfold Mem.store
  rw [if_neg (by omega)]

theorem command_ir (c : Chip) (j k : Nat) (x : UInt8) : (c.command j x).mem (4 * k + 1) 2 = c.mem (4 * k + 1) 2 := by
  have hst : ∀ (c : Chip) s, (c.setStatus j s).mem (4 * k + 1) 2 = c.mem (4 * k + 1) 2 := fun c s => store_ir _ _ _ _ _ (by omega)
  unfold Chip.command
  split
  · unfold Chip.cmdOpen Chip.resetReceived
    rw [hst]
    simp only [setReg_ir _ _ _ _ _ (show 3 ≤ 0x2A by omega), setReg_ir _ _ _ _ _ (show 3 ≤ 0x28 by omega), setReg_ir _ _ _ _ _ (show 3 ≤ 0x26 by omega),
      setReg_ir _ _ _ _ _ (show 3 ≤ 0x24 by omega), setReg_ir _ _ _ _ _ (show 3 ≤ 0x22 by omega), setReg_ir _ _ _ _ _ (show 3 ≤ 0x20 by omega)]
  split
  · split <;> simp only [hst]
  split
  · split <;> simp only [hst]
  split
  · split
    · exact hst _ _
    · split <;> simp only [hst]
  split
  · exact hst _ _
  split
  · unfold Chip.cmdSend
    exact (setReg_ir _ _ _ _ _ (by omega)).trans (setReg_ir _ _ _ _ _ (by omega))
  split
  · exact setReg_ir _ _ _ _ _ (by omega)
  · rfl

theorem writeBytes_quiet (k b : Nat) (bs : Bytes) : ∀ (c : Chip) (a : Nat), Spec.Mqtt.quiet (c.mem (4 * k + 1) 2) = true →
    Spec.Mqtt.quiet ((c.writeBytes b a bs).mem (4 * k + 1) 2) = true := by
  induction bs with
  | nil => intro c a h; exact h
  | cons x xs ih =>
    intro c a h
    refine ih _ _ ?_
    unfold Chip.writeByte
    split
    · split
      · rw [command_ir]; exact h
      split
      · rename_i h2
        by_cases hb : b = 4 * k + 1
        · subst hb
          rw [h2]
          show Spec.Mqtt.quiet ((c.mem.store _ _ _) _ _) = true
          unfold Mem.store
          rw [if_pos ⟨rfl, rfl⟩]
          exact quiet_and _ h
        · dsimp only; rw [store_ir _ _ _ _ _ (.inl hb)]; exact h
      split
      · exact h
      · rename_i h2 _
        dsimp only; rw [store_ir _ _ _ _ _ (.inr h2)]; exact h
    · rename_i hb
      dsimp only; rw [store_ir _ _ _ k _ (.inl (by omega))]; exact h

theorem Peace.write {k : Nat} {w : World} (h : Peace k w) (a : UInt16) (blk : UInt8) (bs : Bytes) : Peace k (worldBus.write a blk bs w).2 :=
  ⟨writeBytes_quiet k _ bs _ _ h.tick.now, h.tick.later⟩

theorem closedPeace (sn : Sn) (k : Nat) : Closed worldBus (OwnBlock sn) (fun m => ∀ w, Peace k w → Peace k (m w).2) :=
  closed_of_rel (fun s t => Peace k s → Peace k t) (fun _ h => h) (fun _ _ _ h1 h2 h => h2 (h1 h)) (fun _ _ _ _ h => h.tick)
    (fun a blk bs _ _ h => h.write a blk bs)

end Verif

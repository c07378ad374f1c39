import Verif.Proof.Basic
import Verif.Spec.World
import Verif.Spec.Mqtt
/-!
# A connection that nothing interrupts
-/
namespace Verif
open Spec (World worldBus Chip Mem EnvStep)

theorem quiet_iff (y : UInt8) : Spec.Mqtt.quiet y = true ↔ y &&& 11 = 0 :=
  forall_u8 (p := fun y => Spec.Mqtt.quiet y = true ↔ y &&& 11 = 0) (by decide +kernel) y

theorem quiet_or {a b : UInt8} (ha : Spec.Mqtt.quiet a = true) (hb : Spec.Mqtt.quiet b = true) : Spec.Mqtt.quiet (a ||| b) = true := by
  rw [quiet_iff] at *
  have h : (a ||| b) &&& 11 = (a &&& 11) ||| (b &&& 11) := by
    apply UInt8.toNat_inj.mp
    simp only [UInt8.toNat_and, UInt8.toNat_or]
    exact Nat.and_or_distrib_right ..
  rw [h, ha, hb]
  rfl

theorem quiet_and {a : UInt8} (b : UInt8) (ha : Spec.Mqtt.quiet a = true) : Spec.Mqtt.quiet (a &&& b) = true := by
  rw [quiet_iff] at *
  rw [UInt8.and_assoc, UInt8.and_comm b, ← UInt8.and_assoc, ha, UInt8.zero_and]

/-- No CON, DISCON or TIMEOUT interrupt of socket `k` is pending, and none will be raised. -/
structure Peace (k : Nat) (w : World) : Prop where
  now : Spec.Mqtt.quiet (w.chip.mem (4 * k + 1) 2) = true
  later : ∀ es ∈ w.sched, ∀ bits, EnvStep.raise k bits ∈ es → Spec.Mqtt.quiet bits = true

theorem setReg_ir (c : Chip) (j a v k : Nat) (ha : 3 ≤ a) : (c.setReg j a v).mem (4 * k + 1) 2 = c.mem (4 * k + 1) 2 := by
  unfold Chip.setReg Mem.setWord Mem.store
  dsimp only
  rw [if_neg (by omega), if_neg (by omega)]

theorem ringWrite_other (m : Mem) (b size pos : Nat) (bs : Bytes) (b' a : Nat) (h : b' ≠ b) : (m.ringWrite b size pos bs) b' a = m b' a := by
  induction bs generalizing m pos with
  | nil => rfl
  | cons y bs ih =>
    rw [Mem.ringWrite, ih]
    unfold Mem.store
    rw [if_neg (by omega)]

theorem envStep_ir (c : Chip) (e : EnvStep) (k : Nat) (hc : Spec.Mqtt.quiet (c.mem (4 * k + 1) 2) = true)
    (he : ∀ bits, e = .raise k bits → Spec.Mqtt.quiet bits = true) : Spec.Mqtt.quiet ((c.envStep e).mem (4 * k + 1) 2) = true := by
  cases e with
  | arrive j bs =>
    unfold Chip.envStep
    dsimp only
    split
    · dsimp only
      rw [ringWrite_other _ _ _ _ _ _ _ (by omega), setReg_ir _ _ _ _ _ (by omega), setReg_ir _ _ _ _ _ (by omega)]
      exact hc
    · exact hc
  | status j s =>
    unfold Chip.envStep Chip.setStatus Mem.store
    dsimp only
    rw [if_neg (by omega)]
    exact hc
  | free j n =>
    unfold Chip.envStep
    rw [setReg_ir _ _ _ _ _ (by omega)]
    exact hc
  | raise j bits =>
    unfold Chip.envStep Mem.store
    dsimp only
    split
    · rename_i h
      have : j = k := by omega
      subst this
      exact quiet_or hc (he bits rfl)
    · exact hc

theorem Peace.tick {k : Nat} {w : World} (h : Peace k w) : Peace k w.tick := by
  unfold World.tick
  split
  · exact h
  · rename_i es rest hs
    have hl := h.later
    rw [hs] at hl
    refine ⟨?_, fun e he => hl e (List.mem_cons_of_mem _ he)⟩
    dsimp only
    have key : ∀ (es : List EnvStep) (c : Chip), (∀ bits, EnvStep.raise k bits ∈ es → Spec.Mqtt.quiet bits = true) →
        Spec.Mqtt.quiet (c.mem (4 * k + 1) 2) = true → Spec.Mqtt.quiet ((es.foldl Chip.envStep c).mem (4 * k + 1) 2) = true := by
      intro es
      induction es with
      | nil => intro c _ hc; exact hc
      | cons e es ih =>
        intro c he hc
        exact ih _ (fun bits hb => he bits (List.mem_cons_of_mem _ hb))
          (envStep_ir c e k hc (fun bits hb => he bits (by rw [hb]; exact List.mem_cons_self)))
    exact key es w.chip (hl es List.mem_cons_self) h.now

theorem Peace.setReg {k : Nat} {w : World} (h : Peace k w) (j a v : Nat) (ha : 3 ≤ a) : Peace k { w with chip := w.chip.setReg j a v } :=
  ⟨by dsimp only; rw [setReg_ir _ _ _ _ _ ha]; exact h.now, h.later⟩

theorem Peace.setIr {k : Nat} {w : World} (h : Peace k w) (v : UInt8) :
    Peace k { w with chip := { w.chip with mem := w.chip.mem.store (4 * k + 1) 0x02 (w.chip.mem (4 * k + 1) 0x02 &&& v) } } := by
  refine ⟨?_, h.later⟩
  unfold Mem.store
  dsimp only
  rw [if_pos ⟨rfl, rfl⟩]
  exact quiet_and v h.now

end Verif

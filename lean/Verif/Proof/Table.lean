import Verif.Proof.LL
import Verif.Spec.Table
namespace Verif
open Spec

/-- One-sided table check. -/
def tableCheck {α β : Type} [DecidableEq β] (code : α → β) (tryFrom : β → Except β α) (c : β) : Bool :=
  match tryFrom c with
  | .ok v => code v = c
  | .error e => e = c

theorem check_ok {α β : Type} [DecidableEq β] (code : α → β) (tryFrom : β → Except β α)
    (h : ∀ c, tableCheck code tryFrom c = true) (c : β) (v : α) (hv : tryFrom c = .ok v) : code v = c := by
  have := h c
  simpa [tableCheck, hv] using this

theorem check_error {α β : Type} [DecidableEq β] (code : α → β) (tryFrom : β → Except β α)
    (h : ∀ c, tableCheck code tryFrom c = true) (c : β) (e : β) (hv : tryFrom c = .error e) : e = c := by
  have := h c
  simpa [tableCheck, hv] using this

theorem isCodeTable_of_check {α β : Type} [DecidableEq β] (code : α → β) (tryFrom : β → Except β α)
    (rt : ∀ v, tryFrom (code v) = .ok v) (h : ∀ c, tableCheck code tryFrom c = true) :
    IsCodeTable code tryFrom where
  roundtrip := rt
  exact := check_ok _ _ h
  reject := by
    intro c e he
    refine ⟨check_error _ _ h c e he, ?_⟩
    intro v hv
    subst hv
    rw [rt] at he
    cases he

theorem SnReg.tryFrom_check (c : UInt16) : tableCheck SnReg.addr SnReg.tryFrom c = true := by
  by_cases hc : c < 64
  · have key : ∀ n : Fin 64, tableCheck SnReg.addr SnReg.tryFrom (UInt16.ofNat n.val) = true := by
      decide +kernel
    have := key ⟨c.toNat, hc⟩
    simpa using this
  · have h' : ∀ r : SnReg, ¬ (c = r.addr) := by
      intro r h; apply hc; rw [h]; cases r <;> decide
    simp only [tableCheck, SnReg.tryFrom, h', if_false, decide_true]

theorem Reg.tryFrom_check (c : UInt16) : tableCheck Reg.addr Reg.tryFrom c = true := by
  by_cases hc : c < 64
  · have key : ∀ n : Fin 64, tableCheck Reg.addr Reg.tryFrom (UInt16.ofNat n.val) = true := by
      decide +kernel
    have := key ⟨c.toNat, hc⟩
    simpa using this
  · have h' : ∀ r : Reg, ¬ (c = r.addr) := by
      intro r h; apply hc; rw [h]; cases r <;> decide
    simp only [tableCheck, Reg.tryFrom, h', if_false, decide_true]

/-- Left inverse used for injectivity (the three registers `try_from` misses are added). -/
def Reg.ofAddr (c : UInt16) : Option Reg :=
  match Reg.tryFrom c with
  | .ok r => some r
  | .error _ => if c = 0x29 then some .UIPR1 else if c = 0x2A then some .UIPR2
      else if c = 0x2B then some .UIPR3 else none

theorem Reg.addr_inj (r s : Reg) (h : r.addr = s.addr) : r = s := by
  have k : ∀ r : Reg, Reg.ofAddr r.addr = some r := by intro r; cases r <;> decide
  have := k r
  rw [h, k s] at this
  exact (Option.some.inj this).symm

end Verif

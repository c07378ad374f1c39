import Verif.Model.SpiMore
/-!
# A reset pin over time

The wire of the reset pin, seen by the chip: for how long it has had which level.  Nothing here
is taken from the driver.
-/
namespace Verif.Spec
open Verif.Spi

/-- The levels of the wire and for how many microseconds each was held, the latest first, and what
the pin and the timer will do: for each pin access whether it works, for each delay how much longer
than asked it takes. -/
structure Wire where
  held : List (Bool × Nat)
  works : Nat → Bool
  extra : Nat → Nat
  uses : Nat

/-- A pin access: a new level begins, or the access fails with the error number `7` and the level
stays. -/
def Wire.drive (level : Bool) : M Wire Unit := fun w =>
  if w.works w.uses then (.ok (), { w with held := (level, 0) :: w.held, uses := w.uses + 1 })
  else (.error (.bus 7), { w with uses := w.uses + 1 })

/-- Time passes. -/
def Wire.wait (us : Nat) (w : Wire) : Wire :=
  { w with
    held := match w.held with
      | [] => []
      | (l, t) :: rest => (l, t + us + w.extra w.uses) :: rest
    uses := w.uses + 1 }

/-- The reset pin and the timer of a board. -/
def wirePin : ResetPin Wire where
  setLow := Wire.drive false
  setHigh := Wire.drive true
  delayUs us := fun w => (.ok (), w.wait us)

end Verif.Spec

import Verif.Thm.Spi
import Verif.Spec.ResetPin
/-!
# C03, C65: the other SPI drivers; C100: the reset sequence
-/
namespace Verif.Thm
open Verif Verif.Spi Verif.Spec

theorem unwrap_ok {σ α} {f : M σ α} {s s' : σ} {a : α} (h : f s = (.ok a, s')) :
    unwrap f s = (.ok a, s') := by
  unfold unwrap
  rw [M.bind_ok (M.attempt_run _ _), h]
  rfl

/-- A fallible operation of `M` that did not fail. -/
theorem ok_eq {σ α} {f : M σ α} {s : σ} (h : ∃ a, (f s).1 = .ok a) :
    ∃ a s', f s = (.ok a, s') := by
  obtain ⟨a, h⟩ := h
  exact ⟨a, (f s).2, Prod.ext h rfl⟩

/-- C03: the driver for an infallible pin does what the driver for a fallible pin does when the pin
never fails, whatever the bus does. -/
theorem C03_infallible_pin {σ : Type} (d : SpiDev σ)
    (hlow : ∀ s, (d.setLow s).1 = .ok ()) (hhigh : ∀ s, (d.setHigh s).1 = .ok ())
    (addr : UInt16) (block : UInt8) (n : Nat) (data : Bytes) (s : σ) :
    pinRead d addr block n s = vdmRead d addr block n s ∧
    pinWrite d addr block data s = vdmWrite d addr block data s := by
  have key : ∀ {α : Type} (f : M σ α) (s : σ), withPin d f s = withChipEnable d f s := by
    intro α f s
    have el : d.setLow s = (.ok (), (d.setLow s).2) := Prod.ext (hlow s) rfl
    have eh : ∀ s, d.setHigh s = (.ok (), (d.setHigh s).2) := fun s => Prod.ext (hhigh s) rfl
    unfold withPin withChipEnable
    rw [M.bind_ok (unwrap_ok el), M.bind_ok el]
    rw [M.bind_ok (M.attempt_run _ _), M.bind_ok (M.attempt_run _ _)]
    rw [M.bind_ok (unwrap_ok (eh _)), M.bind_ok (eh _)]
    rw [M.bind_ok (unwrap_ok (eh _)), M.bind_ok (eh _)]
  exact ⟨key _ s, key _ s⟩

/-- C03: the driver for an infallible bus and pin does what the fallible driver does when neither
ever fails; in particular it does not panic. -/
theorem C03_infallible {σ : Type} (d : SpiDev σ)
    (hlow : ∀ s, (d.setLow s).1 = .ok ()) (hhigh : ∀ s, (d.setHigh s).1 = .ok ())
    (hw : ∀ bs s, (d.write bs s).1 = .ok ()) (hr : ∀ n s, ∃ x, (d.read n s).1 = .ok x)
    (addr : UInt16) (block : UInt8) (n : Nat) (data : Bytes) (s : σ) :
    infRead d addr block n s = vdmRead d addr block n s ∧
    infWrite d addr block data s = vdmWrite d addr block data s := by
  have el : ∀ s, d.setLow s = (.ok (), (d.setLow s).2) := fun s => Prod.ext (hlow s) rfl
  have eh : ∀ s, d.setHigh s = (.ok (), (d.setHigh s).2) := fun s => Prod.ext (hhigh s) rfl
  have ew : ∀ bs s, d.write bs s = (.ok (), (d.write bs s).2) := fun bs s => Prod.ext (hw bs s) rfl
  constructor
  · obtain ⟨x, s2, ex⟩ := ok_eq (hr n (d.write (vdmHeader addr block .read) (d.setLow s).2).2)
    have ef : (do d.write (vdmHeader addr block .read); d.read n : M σ Bytes) (d.setLow s).2
        = (.ok x, s2) := by
      rw [M.bind_ok (ew _ _)]; exact ex
    unfold infRead vdmRead withChipEnable
    rw [M.bind_ok (unwrap_ok (el _)), M.bind_ok (el _)]
    rw [M.bind_ok (unwrap_ok (ew _ _)), M.bind_ok (unwrap_ok ex)]
    rw [M.bind_ok (M.attempt_run _ _), ef]
    rw [M.bind_ok (unwrap_ok (eh _)), M.bind_ok (eh _), M.bind_ok (eh _), M.bind_ok (eh _)]
    rfl
  · have ef : (do d.write (vdmHeader addr block .write); d.write data : M σ Unit) (d.setLow s).2
        = (.ok (), (d.write data (d.write (vdmHeader addr block .write) (d.setLow s).2).2).2) := by
      rw [M.bind_ok (ew _ _)]; exact ew _ _
    unfold infWrite vdmWrite withChipEnable
    rw [M.bind_ok (unwrap_ok (el _)), M.bind_ok (el _)]
    rw [M.bind_ok (unwrap_ok (ew _ _)), M.bind_ok (unwrap_ok (ew _ _))]
    rw [M.bind_ok (M.attempt_run _ _), ef]
    rw [M.bind_ok (unwrap_ok (eh _)), M.bind_ok (eh _), M.bind_ok (eh _)]
    rw [eh]
    rfl

/-- Running the operations of a transaction in order, until one fails. -/
def runOps {σ} (d : SpiDev σ) : List Operation → M σ (List Bytes)
  | [] => pure []
  | .write bs :: rest => do
    d.write bs
    runOps d rest
  | .read n :: rest => do
    let x ← d.read n
    let xs ← runOps d rest
    pure (x :: xs)

/-- An `SpiDevice` that is alone on its bus, as embedded-hal describes it: assert the chip select,
run the operations, deassert it whether or not one failed. -/
def exclusive {σ} (d : SpiDev σ) : SpiDevice σ where
  transaction ops := withChipEnable d (runOps d ops)

theorem withChipEnable_map {σ α β} (d : SpiDev σ) (g : α → β) (f : M σ α) (s : σ) :
    withChipEnable d (do let a ← f; pure (g a)) s = (do let a ← withChipEnable d f; pure (g a)) s := by
  unfold withChipEnable
  simp only [M.bind_run, M.attempt_run, M.ofExcept_run, M.pure_run]
  rcases d.setLow s with ⟨_ | _, s1⟩
  · rfl
  · rcases hf : f s1 with ⟨_ | _, s2⟩
    all_goals
      simp only [hf]
      rcases h2 : d.setHigh s2 with ⟨_ | _, s3⟩
      · simp only []
      · simp only []
        rcases h3 : d.setHigh s3 with ⟨_ | _, s4⟩ <;> simp only []

/-- C03: the embedded-hal 1.0 driver, blocking or asynchronous, on a device that is alone on its
bus does what the embedded-hal 0.2 driver does, also when the bus or the pin fail. -/
theorem C03_transaction {σ : Type} (d : SpiDev σ) (addr : UInt16) (block : UInt8) (n : Nat)
    (data : Bytes) (s : σ) :
    eh1Read (exclusive d) addr block n s = vdmRead d addr block n s ∧
    eh1Write (exclusive d) addr block data s = vdmWrite d addr block data s := by
  constructor
  · unfold eh1Read exclusive vdmRead
    rw [← withChipEnable_map d List.flatten]
    congr 1
    funext t
    simp only [runOps]
    rw [M.bind_run, M.bind_run, M.bind_run]
    cases d.write (vdmHeader addr block .read) t with
    | mk r t1 =>
      cases r with
      | error e => rfl
      | ok _ =>
        simp only []
        rw [M.bind_run]
        cases d.read n t1 with
        | mk r t2 =>
          cases r with
          | error e => rfl
          | ok x => show (Except.ok (x ++ []), t2) = _; rw [List.append_nil]
  · unfold eh1Write exclusive vdmWrite
    rw [← withChipEnable_map d (fun _ => ())]
    congr 1
    funext t
    simp only [runOps]
    rw [M.bind_run, M.bind_run, M.bind_run]
    cases d.write (vdmHeader addr block .write) t with
    | mk r t1 =>
      cases r with
      | error e => rfl
      | ok _ =>
        simp only []
        rw [M.bind_run]
        cases d.write data t1 with
        | mk r t2 => cases r <;> rfl

/-- C03: on the chip all drivers read the same bytes and none changes the memory. -/
theorem C03_read_all_drivers (mem : Mem) (addr : UInt16) (block : UInt8) (hb : block < 32) (n : Nat) :
    let s : Slave := { mem := mem, phase := .idle }
    let r : Except Err Bytes × Slave := (.ok (mem.read block.toNat addr.toNat n), s)
    infRead slaveDev addr block n s = r ∧ pinRead slaveDev addr block n s = r ∧
    eh1Read (exclusive slaveDev) addr block n s = r := by
  have h := C03_read mem addr block hb n
  simp only [] at h
  have e := h.2.trans h.1
  refine ⟨?_, ?_, ?_⟩
  · exact (C03_infallible slaveDev (fun _ => rfl) (fun _ => rfl) (fun _ _ => rfl) (fun _ _ => ⟨_, rfl⟩) addr block n [] _).1.trans e
  · exact (C03_infallible_pin slaveDev (fun _ => rfl) (fun _ => rfl) addr block n [] _).1.trans e
  · exact (C03_transaction slaveDev addr block n [] _).1.trans e

/-- C03: on the chip all drivers store the same bytes and nothing else. -/
theorem C03_write_all_drivers (mem : Mem) (addr : UInt16) (block : UInt8) (hb : block < 32)
    (data : Bytes) :
    let s : Slave := { mem := mem, phase := .idle }
    let r : Except Err Unit × Slave :=
      (.ok (), { mem := mem.write block.toNat addr.toNat data, phase := .idle })
    infWrite slaveDev addr block data s = r ∧ pinWrite slaveDev addr block data s = r ∧
    eh1Write (exclusive slaveDev) addr block data s = r := by
  have h := C03_write mem addr block hb data
  simp only [] at h
  have e := h.2.trans h.1
  refine ⟨?_, ?_, ?_⟩
  · exact (C03_infallible slaveDev (fun _ => rfl) (fun _ => rfl) (fun _ _ => rfl) (fun _ _ => ⟨_, rfl⟩) addr block 0 data _).2.trans e
  · exact (C03_infallible_pin slaveDev (fun _ => rfl) (fun _ => rfl) addr block 0 data _).2.trans e
  · exact (C03_transaction slaveDev addr block 0 data _).2.trans e

/-- Non-vacuity of the three: a bus that fails under a pin that works; the error is the bus error
for the fallible drivers. -/
example : (∀ s, (failingDev.setLow s).1 = .ok ()) ∧ (∀ s, (failingDev.setHigh s).1 = .ok ()) ∧
    pinRead failingDev 0 0 1 true = (.error (.bus 7), true) ∧
    eh1Write (exclusive failingDev) 0 0 [1] true = (.error (.bus 7), true) :=
  ⟨fun _ => rfl, fun _ => rfl, rfl, rfl⟩

/-- C65: with a pin that works the chip is deselected after every access of the driver for an
infallible pin, and the caller gets the result of the transfers, also when they fail. -/
theorem C65_infallible_pin {σ : Type} (d : SpiDev σ) (csHigh : σ → Bool)
    (hlow : ∀ s, (d.setLow s).1 = .ok ())
    (hhigh : ∀ s, (d.setHigh s).1 = .ok () ∧ csHigh (d.setHigh s).2 = true)
    (addr : UInt16) (block : UInt8) (n : Nat) (data : Bytes) (s : σ) :
    csHigh (pinRead d addr block n s).2 = true ∧ csHigh (pinWrite d addr block data s).2 = true := by
  obtain ⟨e1, e2⟩ := C03_infallible_pin d hlow (fun s => (hhigh s).1) addr block n data s
  rw [e1, e2]
  exact ⟨(C65_chip_deselected d csHigh hlow hhigh _ s).1, (C65_chip_deselected d csHigh hlow hhigh _ s).1⟩

/-- The datasheet's shortest reset pulse and longest time for the PLL to lock, in microseconds. -/
def resetCycle : Nat := 500
/-- See `resetCycle`. -/
def pllLock : Nat := 1000

/-- What a caller of `reset` is told, for a wire that was as in `w` before: success exactly when the
wire was low for long enough and then high for long enough, up to the return; otherwise the error
of the pin, and the wire was never released from a reset: it is as before, or low since. -/
def ResetDone (w : Wire) (r : Except Err Unit × Wire) : Prop :=
  (r.1 = .ok () ∧ ∃ lo hi, resetCycle ≤ lo ∧ pllLock ≤ hi ∧
    r.2.held = (true, hi) :: (false, lo) :: w.held) ∨
  (r.1 = .error (.bus 7) ∧
    (r.2.held = w.held ∨ ∃ lo, resetCycle ≤ lo ∧ r.2.held = (false, lo) :: w.held))

theorem drive_ok {l : Bool} {w : Wire} (h : w.works w.uses = true) :
    Wire.drive l w = (.ok (), { w with held := (l, 0) :: w.held, uses := w.uses + 1 }) := if_pos h

theorem drive_fails {l : Bool} {w : Wire} (h : ¬ w.works w.uses = true) :
    Wire.drive l w = (.error (.bus 7), { w with uses := w.uses + 1 }) := if_neg h

/-- C100: resetting the chip. -/
theorem C100_reset (w : Wire) :
    ResetDone w (reset0 wirePin w) ∧ ResetDone w (reset1 wirePin w) := by
  have key : ∀ a b : Nat, resetCycle ≤ a → pllLock ≤ b → ResetDone w
      ((do wirePin.setLow; wirePin.delayUs a; wirePin.setHigh; wirePin.delayUs b : M Wire Unit) w) := by
    intro a b ha hb
    by_cases h1 : w.works w.uses = true
    · rw [M.bind_ok (m := wirePin.setLow) (drive_ok h1)]
      rw [M.bind_ok (show wirePin.delayUs a _ = (.ok (), Wire.wait a _) from rfl)]
      by_cases h2 : w.works (w.uses + 1 + 1) = true
      · rw [M.bind_ok (m := wirePin.setHigh) (drive_ok h2)]
        refine .inl ⟨rfl, 0 + a + w.extra (w.uses + 1), 0 + b + w.extra (w.uses + 1 + 1 + 1), ?_, ?_, rfl⟩
        · unfold resetCycle at *; omega
        · unfold pllLock at *; omega
      · rw [M.bind_error (m := wirePin.setHigh) (drive_fails h2)]
        refine .inr ⟨rfl, .inr ⟨0 + a + w.extra (w.uses + 1), ?_, rfl⟩⟩
        unfold resetCycle at *; omega
    · rw [M.bind_error (m := wirePin.setLow) (drive_fails h1)]
      exact .inr ⟨rfl, .inl rfl⟩
  exact ⟨key _ _ (by decide) (by decide), key _ _ (by decide) (by decide)⟩

/-- C100: with a pin that works the reset succeeds. -/
theorem C100_succeeds (w : Wire) (h : ∀ k, w.works k = true) :
    (reset0 wirePin w).1 = .ok () ∧ (reset1 wirePin w).1 = .ok () := by
  have key : ∀ a b : Nat,
      ((do wirePin.setLow; wirePin.delayUs a; wirePin.setHigh; wirePin.delayUs b : M Wire Unit) w).1 = .ok () := by
    intro a b
    rw [M.bind_ok (m := wirePin.setLow) (drive_ok (h _))]
    rw [M.bind_ok (show wirePin.delayUs a _ = (.ok (), Wire.wait a _) from rfl)]
    rw [M.bind_ok (m := wirePin.setHigh) (drive_ok (w := Wire.wait a { w with held := (false, 0) :: w.held, uses := w.uses + 1 }) (h _))]
    rfl
  exact ⟨key _ _, key _ _⟩

/-- Non-vacuity: a wire that was high, a timer that takes 3 µs longer than asked. -/
example : (reset1 wirePin { held := [(true, 90)], works := fun _ => true, extra := fun _ => 3, uses := 0 }).2.held
    = [(true, 2003), (false, 1003), (true, 90)] := rfl

/-- Non-vacuity: a pin whose second access fails. -/
example : (reset0 wirePin { held := [(true, 90)], works := fun k => k == 0, extra := fun _ => 0, uses := 0 }).1
      = .error (.bus 7) ∧
    (reset0 wirePin { held := [(true, 90)], works := fun k => k == 0, extra := fun _ => 0, uses := 0 }).2.held
      = [(false, 1000), (true, 90)] := ⟨rfl, rfl⟩

end Verif.Thm

import Verif.Proof.History
import Verif.Spec.Datagrams
import Verif.Proof.Call
namespace Verif
open Hl Spec

/-! ## Frames -/

theorem frames_cons (g : Datagram) (gs : List Datagram) : frames (g :: gs) = udpFrame g.src g.payload ++ frames gs := rfl
theorem frames_append (a b : List Datagram) : frames (a ++ b) = frames a ++ frames b := by
  unfold frames; simp
theorem Fit_append {a b : List Datagram} (ha : Fit a) (hb : Fit b) : Fit (a ++ b) := by
  intro g hg
  rcases List.mem_append.mp hg with h | h
  · exact ha g h
  · exact hb g h

/-- A queue of frames can be read in one way only. -/
theorem frames_prefix {as bs : List Datagram} (ha : Fit as) (hb : Fit bs) (h : frames as <+: frames bs) : as <+: bs := by
  induction as generalizing bs with
  | nil => exact List.nil_prefix
  | cons a as ih =>
    obtain ⟨t, ht⟩ := h
    cases bs with
    | nil =>
      have := congrArg List.length ht
      rw [frames_cons] at this
      simp [frames, udpFrame_length] at this
    | cons b bs =>
      rw [frames_cons, frames_cons, List.append_assoc] at ht
      have e1 := deser_frame a.src a.payload (frames as ++ t) (ha a List.mem_cons_self)
      have e2 := deser_frame b.src b.payload (frames bs) (hb b List.mem_cons_self)
      rw [ht, e2] at e1
      injection e1 with e3 e4
      have l1 := ha a List.mem_cons_self
      have l2 := hb b List.mem_cons_self
      have hl : b.payload.length = a.payload.length := by
        have := congrArg UInt16.toNat e4
        rw [UInt16.toNat_ofNat', UInt16.toNat_ofNat'] at this; omega
      have e5 := congrArg (List.drop 8) ht
      rw [udpFrame_drop, udpFrame_drop] at e5
      obtain ⟨e6, e7⟩ := List.append_inj e5 hl.symm
      have : a = b := by cases a; cases b; simp_all
      subst this
      obtain ⟨u, hu⟩ := ih (fun g hg => ha g (List.mem_cons_of_mem _ hg)) (fun g hg => hb g (List.mem_cons_of_mem _ hg)) ⟨t, e7⟩
      exact ⟨u, by rw [List.cons_append, hu]⟩

/-! ## Whole datagrams stay whole -/

theorem envStep_received (c : Chip) (k : Nat) (e : EnvStep) :
    (c.envStep e).received k = c.received k ∨ ∃ bs, e = .arrive k bs ∧ (c.envStep e).received k = c.received k ++ bs := by
  cases e with
  | arrive j bs =>
    unfold Chip.envStep
    simp only
    by_cases hf : c.rxRsr j + bs.length ≤ c.rxSize j
    · rw [if_pos hf]
      by_cases hj : k = j
      · subst hj; right; exact ⟨bs, rfl, by simp⟩
      · left; simp [hj]
    · rw [if_neg hf]; left; trivial
  | status j s => left; rfl
  | free j n => left; rfl
  | raise j b => left; rfl

theorem foldl_whole (k : Nat) (es : List EnvStep) (c : Chip) (h : ∃ gs, Fit gs ∧ c.received k = frames gs)
    (hf : ∀ bs, EnvStep.arrive k bs ∈ es → ∃ gs, Fit gs ∧ bs = frames gs) :
    ∃ gs, Fit gs ∧ (es.foldl Chip.envStep c).received k = frames gs := by
  induction es generalizing c with
  | nil => exact h
  | cons e es ih =>
    refine ih (c.envStep e) ?_ fun bs hb => hf bs (List.mem_cons_of_mem _ hb)
    obtain ⟨gs, g1, g2⟩ := h
    rcases envStep_received c k e with he | ⟨bs, rfl, he⟩
    · exact ⟨gs, g1, by rw [he, g2]⟩
    · obtain ⟨gs', g3, g4⟩ := hf bs List.mem_cons_self
      exact ⟨gs ++ gs', Fit_append g1 g3, by rw [he, g2, g4, frames_append]⟩

theorem Spec.WholeDatagrams.tick {k : Nat} {w : World} (h : WholeDatagrams k w) : WholeDatagrams k w.tick := by
  unfold World.tick
  split
  · exact h
  · rename_i es rest hs
    exact ⟨foldl_whole k es w.chip h.past (h.future es (by rw [hs]; exact List.mem_cons_self)),
      fun es' he => h.future es' (by rw [hs]; exact List.mem_cons_of_mem _ he)⟩

theorem command_received (c : Chip) (j k : Nat) (x : UInt8) :
    (c.command j x).received k = c.received k ∨ (c.command j x).received k = [] := by
  unfold Chip.command
  repeat' split
  all_goals first | exact .inl rfl | skip
  by_cases hj : k = j
  · subst hj; right; simp [Chip.cmdOpen, Chip.setStatus, Chip.resetReceived]
  · left; simp [Chip.cmdOpen, Chip.setStatus, Chip.resetReceived, hj, Chip.setReg]

theorem writeBytes_received (xs : Bytes) (c : Chip) (blk a k : Nat) :
    (c.writeBytes blk a xs).received k = c.received k ∨ (c.writeBytes blk a xs).received k = [] := by
  induction xs generalizing c a with
  | nil => exact .inl rfl
  | cons x xs ih =>
    have h1 : (c.writeByte blk (a % 65536) x).received k = c.received k ∨ (c.writeByte blk (a % 65536) x).received k = [] := by
      unfold Chip.writeByte
      split
      · split
        · exact command_received _ _ _ _
        · split
          · exact .inl rfl
          · split <;> exact .inl rfl
      · exact .inl rfl
    have h2 := ih (c.writeByte blk (a % 65536) x) (a + 1)
    rcases h2 with h2 | h2
    · unfold Chip.writeBytes; rw [h2]; exact h1
    · exact .inr h2

/-- No call can spoil the queue. -/
theorem whole_call (dbg : Bool) (fuel : Nat) (k : Nat) (sn : Sn) (c : Call) (w : World) (h : WholeDatagrams k w) :
    WholeDatagrams k (c.exec dbg fuel worldBus sn w).2 := by
  have hc : Closed worldBus (OwnBlock sn) (fun {α} (m : M World α) => ∀ s, WholeDatagrams k s → WholeDatagrams k (m s).2) :=
    closed_of_rel (fun s t => WholeDatagrams k s → WholeDatagrams k t) (fun _ h => h) (fun _ _ _ h1 h2 h => h2 (h1 h))
      (fun _ _ _ _ h => h.tick) (fun a blk bs w _ h => by
        refine ⟨?_, h.tick.future⟩
        have := h.tick.past
        rcases writeBytes_received bs w.tick.chip blk.toNat a.toNat k with e | e
        · rw [show ((worldBus.write a blk bs w).2).chip.received k = _ from e]; exact h.tick.past
        · rw [show ((worldBus.write a blk bs w).2).chip.received k = _ from e]; exact ⟨[], nofun, rfl⟩)
  exact closed_call hc dbg fuel c w h

end Verif

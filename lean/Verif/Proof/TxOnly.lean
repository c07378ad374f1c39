import Verif.Proof.Emit
import Verif.Proof.Peace
/-!
# Sending leaves the receive side and the interrupts alone
-/
namespace Verif
open Hl
open Spec (World worldBus Chip Mem TxState EnvStep)

/-- Nothing will arrive for socket `k`. -/
def Still (k : Nat) (w : World) : Prop := ∀ es ∈ w.sched, ∀ bs, EnvStep.arrive k bs ∉ es

theorem envStep_still (c : Chip) (e : EnvStep) (k : Nat) (h : ∀ bs, e ≠ .arrive k bs) : (c.envStep e).received k = c.received k := by
  cases e with
  | arrive j bs =>
    unfold Chip.envStep
    dsimp only
    split
    · dsimp only
      rw [if_neg]
      rintro rfl
      exact h bs rfl
    · rfl
  | _ => rfl

theorem Still.tick {k : Nat} {w : World} (h : Still k w) : Still k w.tick ∧ w.tick.chip.received k = w.chip.received k := by
  unfold World.tick
  split
  · exact ⟨h, rfl⟩
  · rename_i es rest hs
    have hl := h
    unfold Still at hl
    rw [hs] at hl
    refine ⟨fun e he => hl e (List.mem_cons_of_mem _ he), ?_⟩
    have key : ∀ (es : List EnvStep) (c : Chip), (∀ bs, EnvStep.arrive k bs ∉ es) → (es.foldl Chip.envStep c).received k = c.received k := by
      intro es
      induction es with
      | nil => intro c _; rfl
      | cons e es ih =>
        intro c he
        rw [List.foldl_cons, ih _ (fun bs hb => he bs (List.mem_cons_of_mem _ hb)),
          envStep_still _ _ _ (fun bs hb => he bs (by rw [hb]; exact List.mem_cons_self))]
    exact key es w.chip (hl es List.mem_cons_self)

/-- The receive side of socket `k` and its interrupts are left alone. -/
structure TxOnly (k : Nat) (w w' : World) : Prop where
  rx : ∀ base p, RxAt w.chip k base p → RxAt w'.chip k base p
  pre : w.chip.received k <+: w'.chip.received k
  peace : Peace k w → Peace k w'
  still : Still k w → Still k w' ∧ w'.chip.received k = w.chip.received k

theorem TxOnly.refl (k : Nat) (w : World) : TxOnly k w w := ⟨fun _ _ h => h, List.prefix_rfl, id, fun h => ⟨h, rfl⟩⟩

theorem TxOnly.trans {k : Nat} {u v w : World} (h1 : TxOnly k u v) (h2 : TxOnly k v w) : TxOnly k u w :=
  ⟨fun b p h => h2.rx b p (h1.rx b p h), h1.pre.trans h2.pre, fun h => h2.peace (h1.peace h),
    fun h => ⟨(h2.still (h1.still h).1).1, (h2.still (h1.still h).1).2.trans (h1.still h).2⟩⟩

theorem TxOnly.tick (k : Nat) (w : World) : TxOnly k w w.tick := ⟨fun _ _ h => h.tick, tick_received_prefix w k, fun h => h.tick, fun h => h.tick⟩

/-- A change of the memory elsewhere. -/
theorem TxOnly.of_mem {k : Nat} {w : World} {c : Chip}
    (h1 : ∀ a, a = 2 ∨ a = 0x1E ∨ (0x26 ≤ a ∧ a ≤ 0x2B) → c.mem (4 * k + 1) a = w.chip.mem (4 * k + 1) a)
    (h2 : ∀ a, c.mem (4 * k + 3) a = w.chip.mem (4 * k + 3) a) (h3 : c.received k = w.chip.received k) :
    TxOnly k w { w with chip := c } :=
  ⟨fun _ _ h => RxAt.congr (fun a ha => h1 a (.inr ha)) h2 h3 h, by
    show _ <+: c.received k
    rw [h3]; exact List.prefix_rfl, fun h => ⟨by
    show Spec.Mqtt.quiet (c.mem (4 * k + 1) 2) = true
    rw [h1 _ (.inl rfl)]; exact h.now, h.later⟩, fun h => ⟨h, h3⟩⟩

theorem writeBytes_txBlock (k : Nat) (bs : Bytes) : ∀ (c : Chip) (a : Nat),
    (∀ b x, b ≠ 4 * k + 2 → (c.writeBytes (4 * k + 2) a bs).mem b x = c.mem b x) ∧ (c.writeBytes (4 * k + 2) a bs).received = c.received := by
  induction bs with
  | nil => intro c a; exact ⟨fun _ _ _ => rfl, rfl⟩
  | cons y bs ih =>
    intro c a
    have e : c.writeByte (4 * k + 2) (a % 65536) y = { c with mem := c.mem.store (4 * k + 2) (c.phys (4 * k + 2) (a % 65536)) y } := by
      unfold Chip.writeByte
      rw [if_neg (by omega)]
    rw [Chip.writeBytes, e]
    obtain ⟨h1, h2⟩ := ih { c with mem := c.mem.store (4 * k + 2) (c.phys (4 * k + 2) (a % 65536)) y } (a + 1)
    refine ⟨fun b x hb => ?_, h2⟩
    rw [h1 b x hb]
    exact if_neg (fun h => hb h.1)

theorem txOnly_txBuf (sn : Sn) (ptr : UInt16) (bs : Bytes) (w : World) : TxOnly sn.idx w (worldBus.setSnTxBuf sn ptr bs w).2 := by
  unfold Bus.setSnTxBuf
  rw [worldBus_write, Sn.txBlock_idx]
  obtain ⟨h1, h2⟩ := writeBytes_txBlock sn.idx bs w.tick.chip ptr.toNat
  exact (TxOnly.tick _ w).trans (TxOnly.of_mem (fun a _ => h1 _ a (by omega)) (fun a => h1 _ a (by omega)) (by rw [h2]))

theorem txOnly_wprog {α : Type} (prog : WProg α) : ∀ (w : World) (r : Ptrs), TxOnly r.sn.idx w (prog.run (writerOps worldBus) (w, r)).2.1 := by
  induction prog with
  | ret x => intro w r; exact .refl _ _
  | write n k ih =>
    intro w r
    have key : TxOnly r.sn.idx w ((writerOps worldBus).write n (w, r)).2.1 ∧ ((writerOps worldBus).write n (w, r)).2.2.sn = r.sn := by
      simp only [writerOps, writerWrite]
      by_cases hz : min16 r.remain (lenU16 n.length) ≠ 0
      · rw [if_pos hz, M.bind_run]
        have := txOnly_txBuf r.sn r.ptr (n.take (min16 r.remain (lenU16 n.length)).toNat) w
        revert this
        rcases worldBus.setSnTxBuf r.sn r.ptr (n.take (min16 r.remain (lenU16 n.length)).toNat) w with ⟨e | x, s'⟩ <;> exact fun this => ⟨this, rfl⟩
      · rw [if_neg hz]; exact ⟨.refl _ _, rfl⟩
    have := ih ((writerOps worldBus).write n (w, r)).1 ((writerOps worldBus).write n (w, r)).2.1 ((writerOps worldBus).write n (w, r)).2.2
    rw [key.2] at this
    exact key.1.trans this
  | writeAll n k ih =>
    intro w r
    have key : TxOnly r.sn.idx w ((writerOps worldBus).writeAll n (w, r)).2.1 ∧ ((writerOps worldBus).writeAll n (w, r)).2.2.sn = r.sn := by
      simp only [writerOps, writerWriteAll]
      by_cases hz : min16 r.remain (lenU16 n.length) ≠ lenU16 n.length
      · rw [if_pos hz]; exact ⟨.refl _ _, rfl⟩
      · rw [if_neg hz, M.bind_run]
        have := txOnly_txBuf r.sn r.ptr n w
        revert this
        rcases worldBus.setSnTxBuf r.sn r.ptr n w with ⟨e | x, s'⟩ <;> exact fun this => ⟨this, rfl⟩
    have := ih ((writerOps worldBus).writeAll n (w, r)).1 ((writerOps worldBus).writeAll n (w, r)).2.1 ((writerOps worldBus).writeAll n (w, r)).2.2
    rw [key.2] at this
    exact key.1.trans this
  | seek pos k ih =>
    intro w r
    have key : ((writerOps worldBus).seek pos (w, r)).2.1 = w ∧ ((writerOps worldBus).seek pos (w, r)).2.2.sn = r.sn := by
      simp only [writerOps, Ptrs.seek]
      split
      · rename_i e
        split at e
        · simp at e
        · injection e with e; rw [← e]; exact ⟨rfl, rfl⟩
      · exact ⟨rfl, rfl⟩
    have := ih ((writerOps worldBus).seek pos (w, r)).1 ((writerOps worldBus).seek pos (w, r)).2.1 ((writerOps worldBus).seek pos (w, r)).2.2
    rw [key.2] at this
    have e := key.1
    show TxOnly r.sn.idx w ((k ((writerOps worldBus).seek pos (w, r)).1).run (writerOps worldBus)
      (((writerOps worldBus).seek pos (w, r)).2.1, ((writerOps worldBus).seek pos (w, r)).2.2)).2.1
    rw [e] at this ⊢
    exact this
  | rewind k ih => intro w r; exact ih w r.rewind
  | streamLen k ih => intro w r; exact ih _ w r
  | streamPosition k ih => intro w r; exact ih _ w r
  | remain k ih => intro w r; exact ih _ w r

theorem txOnly_writerSend (r : Ptrs) (w : World) : TxOnly r.sn.idx w (writerSend worldBus r w).2 := by
  unfold writerSend
  rw [M.bind_ok (run_setSnTxWr r.sn r.ptr w), run_setSnCr, command_send]
  have hs : ∀ (c : Chip) (a v b z : Nat), (b ≠ 4 * r.sn.idx + 1 ∨ (z ≠ a ∧ z ≠ a + 1)) → (c.setReg r.sn.idx a v).mem b z = c.mem b z :=
    fun c a v b z h => Mem.setWord_ne _ _ _ _ _ _ (by omega)
  refine (TxOnly.tick _ w).trans ?_
  refine TxOnly.trans (v := { w.tick with chip := w.tick.chip.setReg r.sn.idx 0x24 r.ptr.toNat })
    (TxOnly.of_mem (fun a ha => hs _ _ _ _ _ (by omega)) (fun a => hs _ _ _ _ _ (by omega)) rfl) ?_
  refine (TxOnly.tick _ _).trans ?_
  refine TxOnly.of_mem (fun a ha => ?_) (fun a => ?_) rfl
  · show ((Chip.setReg _ _ _ _).setReg _ _ _).mem _ _ = _
    rw [hs _ _ _ _ _ (by omega), hs _ _ _ _ _ (by omega)]
  · show ((Chip.setReg _ _ _ _).setReg _ _ _).mem _ _ = _
    rw [hs _ _ _ _ _ (by omega), hs _ _ _ _ _ (by omega)]

/-- A message that is written and sent. -/
theorem txOnly_emitSend (sn : Sn) (p : WProg Unit) (w : World) : TxOnly sn.idx w (emitSend sn p w).2 := by
  unfold emitSend socketWriter
  simp only [bind_assoc, pure_bind]
  refine (TxOnly.tick _ w).trans ?_
  rw [M.bind_ok (run_snTxPtrs sn w)]
  generalize hr : ({ sn := sn, head := _, tail := _, ptr := _ } : Ptrs) = r
  have hsn : r.sn = sn := by rw [← hr]
  have h1 := txOnly_wprog p w.tick r
  have h2 := wprog_sn (b := worldBus) p w.tick r
  rw [M.bind_run]
  unfold onWriter
  rcases hp : p.run (writerOps worldBus) (w.tick, r) with ⟨e | a, w2, r2⟩
  · rw [hp, hsn] at h1
    exact h1
  · rw [hp, hsn] at h1
    rw [hp, hsn] at h2
    have h3 := txOnly_writerSend r2 w2
    change r2.sn = sn at h2
    rw [h2] at h3
    exact h1.trans h3

end Verif

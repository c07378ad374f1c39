import Verif.Proof.TxOnly
/-!
# Sending takes no more room of the transmit buffer than what is sent
-/
namespace Verif
open Hl
open Spec (World worldBus Chip Mem TxState EnvStep)

/-- How much was transmitted. -/
def sentLength (w : World) : Nat := (w.chip.sent.map (·.payload.length)).sum

/-- The free size and what was transmitted do not get less. -/
def Roomy (k : Nat) (w w' : World) : Prop :=
  w.chip.txSize k < 65536 → w.chip.txFsr k ≤ w.chip.txSize k →
    w'.chip.txSize k = w.chip.txSize k ∧ w'.chip.txFsr k ≤ w.chip.txSize k ∧ w.chip.txFsr k + sentLength w ≤ w'.chip.txFsr k + sentLength w'

theorem Roomy.refl (k : Nat) (w : World) : Roomy k w w := fun _ h => ⟨rfl, h, Nat.le_refl _⟩

theorem Roomy.trans {k : Nat} {u v w : World} (h1 : Roomy k u v) (h2 : Roomy k v w) : Roomy k u w := by
  intro a b
  obtain ⟨c1, c2, c3⟩ := h1 a b
  obtain ⟨d1, d2, d3⟩ := h2 (by rw [c1]; exact a) (by rw [c1]; exact c2)
  exact ⟨d1.trans c1, by rw [← c1]; exact d2, Nat.le_trans c3 d3⟩

theorem tick_txFsr_le (w : World) (k : Nat) (hlt : w.chip.txSize k < 65536) (h : w.chip.txFsr k ≤ w.chip.txSize k) :
    w.tick.chip.txFsr k ≤ w.chip.txSize k := by
  unfold World.tick
  cases w.sched with
  | nil => exact h
  | cons es rest =>
    dsimp only
    revert h hlt
    generalize w.chip = c
    induction es generalizing c with
    | nil => exact fun _ h => h
    | cons e es ih =>
      intro hlt h
      rw [List.foldl_cons]
      have hs : (c.envStep e).txSize k = c.txSize k := by
        unfold Chip.txSize; rw [envStep_frame _ _ _ _ (by omega) (by omega)]
      have hf : (c.envStep e).txFsr k ≤ c.txSize k := by
        cases e with
        | arrive j bs =>
          simp only [Chip.envStep]
          split
          · unfold Chip.txFsr
            simp only [Chip.setReg]
            rw [Mem.ringWrite_word _ _ _ _ _ _ _ (by omega), Mem.word_setWord_ne _ _ _ _ _ _ (by omega),
              Mem.word_setWord_ne _ _ _ _ _ _ (by omega)]
            exact h
          · exact h
        | status j s =>
          unfold Chip.txFsr Mem.word Chip.envStep Chip.setStatus Mem.store
          dsimp only
          rw [if_neg (by omega), if_neg (by omega)]
          exact h
        | free j n =>
          by_cases hj : j = k
          · subst hj
            unfold Chip.txFsr Chip.envStep
            rw [setReg_word]
            exact Nat.le_trans (Nat.mod_le _ _) (Nat.min_le_left _ _)
          · unfold Chip.txFsr Chip.envStep Chip.setReg
            dsimp only
            rw [Mem.word_setWord_ne _ _ _ _ _ _ (by omega)]
            exact h
        | raise j bits =>
          unfold Chip.txFsr Mem.word Chip.envStep Mem.store
          dsimp only
          rw [if_neg (by omega), if_neg (by omega)]
          exact h
      have := ih (c.envStep e) (by rw [hs]; exact hlt) (by rw [hs]; exact hf)
      rw [hs] at this
      exact this

theorem Roomy.tick (k : Nat) (w : World) : Roomy k w w.tick := by
  intro h1 h2
  refine ⟨tick_txSize w k, tick_txFsr_le w k h1 h2, ?_⟩
  have := tick_txFsr_ge' w k _ h1 ⟨Nat.le_refl _, h2⟩
  unfold sentLength
  rw [tick_sent]
  omega

/-- A change elsewhere. -/
theorem Roomy.of_mem {k : Nat} {w : World} {c : Chip} (h1 : ∀ a, 0x1F ≤ a ∧ a ≤ 0x21 → c.mem (4 * k + 1) a = w.chip.mem (4 * k + 1) a)
    (h2 : c.sent = w.chip.sent) : Roomy k w { w with chip := c } := by
  intro _ h
  have e1 : c.txSize k = w.chip.txSize k := by unfold Chip.txSize; rw [h1 _ (by omega)]
  have e2 : c.txFsr k = w.chip.txFsr k := by unfold Chip.txFsr Mem.word; rw [h1 _ (by omega), h1 _ (by omega)]
  refine ⟨e1, by show c.txFsr k ≤ _; rw [e2]; exact h, ?_⟩
  show _ ≤ c.txFsr k + (c.sent.map _).sum
  rw [e2, h2]
  exact Nat.le_refl _

theorem writeBytes_txBlock_sent (k : Nat) (bs : Bytes) : ∀ (c : Chip) (a : Nat), (c.writeBytes (4 * k + 2) a bs).sent = c.sent := by
  induction bs with
  | nil => intro c a; rfl
  | cons y bs ih =>
    intro c a
    have e : c.writeByte (4 * k + 2) (a % 65536) y = { c with mem := c.mem.store (4 * k + 2) (c.phys (4 * k + 2) (a % 65536)) y } := by
      unfold Chip.writeByte
      rw [if_neg (by omega)]
    rw [Chip.writeBytes, e, ih]

theorem roomy_txBuf (sn : Sn) (ptr : UInt16) (bs : Bytes) (w : World) : Roomy sn.idx w (worldBus.setSnTxBuf sn ptr bs w).2 := by
  unfold Bus.setSnTxBuf
  rw [worldBus_write, Sn.txBlock_idx]
  obtain ⟨h1, -⟩ := writeBytes_txBlock sn.idx bs w.tick.chip ptr.toNat
  exact (Roomy.tick _ w).trans (Roomy.of_mem (fun a _ => h1 _ a (by omega)) (writeBytes_txBlock_sent _ _ _ _))

theorem roomy_wprog {α : Type} (prog : WProg α) : ∀ (w : World) (r : Ptrs), Roomy r.sn.idx w (prog.run (writerOps worldBus) (w, r)).2.1 := by
  induction prog with
  | ret x => intro w r; exact .refl _ _
  | write n k ih =>
    intro w r
    have key : Roomy r.sn.idx w ((writerOps worldBus).write n (w, r)).2.1 ∧ ((writerOps worldBus).write n (w, r)).2.2.sn = r.sn := by
      simp only [writerOps, writerWrite]
      by_cases hz : min16 r.remain (lenU16 n.length) ≠ 0
      · rw [if_pos hz, M.bind_run]
        have := roomy_txBuf r.sn r.ptr (n.take (min16 r.remain (lenU16 n.length)).toNat) w
        revert this
        rcases worldBus.setSnTxBuf r.sn r.ptr (n.take (min16 r.remain (lenU16 n.length)).toNat) w with ⟨e | x, s'⟩ <;> exact fun this => ⟨this, rfl⟩
      · rw [if_neg hz]; exact ⟨.refl _ _, rfl⟩
    have := ih ((writerOps worldBus).write n (w, r)).1 ((writerOps worldBus).write n (w, r)).2.1 ((writerOps worldBus).write n (w, r)).2.2
    rw [key.2] at this
    exact key.1.trans this
  | writeAll n k ih =>
    intro w r
    have key : Roomy r.sn.idx w ((writerOps worldBus).writeAll n (w, r)).2.1 ∧ ((writerOps worldBus).writeAll n (w, r)).2.2.sn = r.sn := by
      simp only [writerOps, writerWriteAll]
      by_cases hz : min16 r.remain (lenU16 n.length) ≠ lenU16 n.length
      · rw [if_pos hz]; exact ⟨.refl _ _, rfl⟩
      · rw [if_neg hz, M.bind_run]
        have := roomy_txBuf r.sn r.ptr n w
        revert this
        rcases worldBus.setSnTxBuf r.sn r.ptr n w with ⟨e | x, s'⟩ <;> exact fun this => ⟨this, rfl⟩
    have := ih ((writerOps worldBus).writeAll n (w, r)).1 ((writerOps worldBus).writeAll n (w, r)).2.1 ((writerOps worldBus).writeAll n (w, r)).2.2
    rw [key.2] at this
    exact key.1.trans this
  | seek pos k ih =>
    intro w r
    have key : ((writerOps worldBus).seek pos (w, r)).2.1 = w ∧ ((writerOps worldBus).seek pos (w, r)).2.2.sn = r.sn := by
      simp only [writerOps, Ptrs.seek]
      split
      · rename_i e
        split at e
        · simp at e
        · injection e with e; rw [← e]; exact ⟨rfl, rfl⟩
      · exact ⟨rfl, rfl⟩
    have := ih ((writerOps worldBus).seek pos (w, r)).1 ((writerOps worldBus).seek pos (w, r)).2.1 ((writerOps worldBus).seek pos (w, r)).2.2
    rw [key.2] at this
    have e := key.1
    show Roomy r.sn.idx w ((k ((writerOps worldBus).seek pos (w, r)).1).run (writerOps worldBus)
      (((writerOps worldBus).seek pos (w, r)).2.1, ((writerOps worldBus).seek pos (w, r)).2.2)).2.1
    rw [e] at this ⊢
    exact this
  | rewind k ih => intro w r; exact ih w r.rewind
  | streamLen k ih => intro w r; exact ih _ w r
  | streamPosition k ih => intro w r; exact ih _ w r
  | remain k ih => intro w r; exact ih _ w r

theorem roomy_cmdSend (k : Nat) (w : World) : Roomy k w { w with chip := w.chip.cmdSend k } := by
  intro h1 h2
  have hlt : w.chip.txFsr k < 65536 := Nat.lt_of_le_of_lt h2 h1
  generalize hn : (w.chip.txWr k + 65536 - w.chip.txRd k) % 65536 = n
  have e1 : (w.chip.cmdSend k).txSize k = w.chip.txSize k := by
    unfold Chip.txSize Chip.cmdSend
    dsimp only
    unfold Chip.setReg
    dsimp only
    rw [Mem.setWord_ne _ _ _ _ _ _ (by omega), Mem.setWord_ne _ _ _ _ _ _ (by omega)]
  have e2 : (w.chip.cmdSend k).txFsr k = w.chip.txFsr k - n := by
    show ((w.chip.setReg k 0x22 (w.chip.txWr k)).setReg k 0x20 (w.chip.txFsr k - (w.chip.txWr k + 65536 - w.chip.txRd k) % 65536)).mem.word _ _ = _
    rw [setReg_word, hn, Nat.mod_eq_of_lt (by omega)]
  have e3 : ((w.chip.cmdSend k).sent.map (·.payload.length)).sum = sentLength w + n := by
    unfold sentLength
    show ((w.chip.sent ++ [_]).map _).sum = _
    rw [List.map_append, List.sum_append]
    show _ + (List.length (Mem.ringRead _ _ _ _ _) + 0) = _
    rw [Mem.ringRead_length, hn]
    rfl
  refine ⟨e1, by show (w.chip.cmdSend k).txFsr k ≤ _; rw [e2]; omega, ?_⟩
  show _ ≤ (w.chip.cmdSend k).txFsr k + ((w.chip.cmdSend k).sent.map (·.payload.length)).sum
  rw [e2, e3]
  omega

theorem roomy_writerSend (r : Ptrs) (w : World) : Roomy r.sn.idx w (writerSend worldBus r w).2 := by
  unfold writerSend
  rw [M.bind_ok (run_setSnTxWr r.sn r.ptr w), run_setSnCr, command_send]
  refine (Roomy.tick _ w).trans ?_
  refine Roomy.trans (v := { w.tick with chip := w.tick.chip.setReg r.sn.idx 0x24 r.ptr.toNat })
    (Roomy.of_mem (fun a ha => Mem.setWord_ne _ _ _ _ _ _ (by omega)) rfl) ?_
  exact (Roomy.tick _ _).trans (roomy_cmdSend _ _)

/-- A message that is written and sent. -/
theorem roomy_emitSend (sn : Sn) (p : WProg Unit) (w : World) : Roomy sn.idx w (emitSend sn p w).2 := by
  unfold emitSend socketWriter
  simp only [bind_assoc, pure_bind]
  refine (Roomy.tick _ w).trans ?_
  rw [M.bind_ok (run_snTxPtrs sn w)]
  generalize hr : ({ sn := sn, head := _, tail := _, ptr := _ } : Ptrs) = r
  have hsn : r.sn = sn := by rw [← hr]
  have h1 := roomy_wprog p w.tick r
  have h2 := wprog_sn (b := worldBus) p w.tick r
  rw [M.bind_run]
  unfold onWriter
  rcases hp : p.run (writerOps worldBus) (w.tick, r) with ⟨e | a, w2, r2⟩
  · rw [hp, hsn] at h1
    exact h1
  · rw [hp, hsn] at h1
    rw [hp, hsn] at h2
    have h3 := roomy_writerSend r2 w2
    change r2.sn = sn at h2
    rw [h2] at h3
    exact h1.trans h3

/-- Sending a message takes no more room than its length. -/
theorem emitSend_room {sn : Sn} {p : WProg Unit} {w w' : World} {res : Except Err Unit} {out : Spec.Sent} (h : TxState w.chip sn.idx)
    (e : emitSend sn p w = (res, w')) (hs : w'.chip.sent = w.chip.sent ++ [out]) :
    w.chip.txFsr sn.idx ≤ w'.chip.txFsr sn.idx + out.payload.length := by
  have := (roomy_emitSend sn p w h.size_lt h.fsr_le).2.2
  rw [e] at this
  unfold sentLength at this
  dsimp only at this
  rw [hs, List.map_append, List.sum_append] at this
  change _ ≤ _ + (_ + (out.payload.length + 0)) at this
  omega

end Verif

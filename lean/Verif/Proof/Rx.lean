import Verif.Proof.World
namespace Verif
open Hl Spec

/-- The receive side of socket `k`: the buffer holds the received bytes from number `p` on, `base`
being the pointer value of byte number 0. -/
structure RxOk (c : Chip) (k base p : Nat) : Prop where
  dvd : 65536 % c.rxSize k = 0
  size_lt : c.rxSize k < 65536
  le : p ≤ (c.received k).length
  fits : (c.received k).length - p ≤ c.rxSize k
  rsr : c.rxRsr k = (c.received k).length - p
  wr : c.rxWr k = (base + (c.received k).length) % 65536
  data : ∀ i (h : i < (c.received k).length), p ≤ i →
    c.mem (4 * k + 3) ((base + i) % c.rxSize k) = (c.received k)[i]

/-- Two chips agree on the receive side of socket `k`. -/
structure RxSame (c c' : Chip) (k : Nat) : Prop where
  size : c'.rxSize k = c.rxSize k
  rsr : c'.rxRsr k = c.rxRsr k
  wr : c'.rxWr k = c.rxWr k
  buf : ∀ a, c'.mem (4 * k + 3) a = c.mem (4 * k + 3) a
  received : c'.received k = c.received k

theorem RxSame.rxOk {c c' : Chip} {k base p : Nat} (h : RxSame c c' k) (hr : RxOk c k base p) :
    RxOk c' k base p := by
  obtain ⟨h1, h2, h3, h4, h5⟩ := h
  constructor
  · rw [h1]; exact hr.dvd
  · rw [h1]; exact hr.size_lt
  · rw [h5]; exact hr.le
  · rw [h1, h5]; exact hr.fits
  · rw [h2, h5]; exact hr.rsr
  · rw [h3, h5]; exact hr.wr
  · intro i hi hpi
    simp only [h5] at hi ⊢
    rw [h1, h4]
    exact hr.data i hi hpi

theorem RxSame.of_mem {c c' : Chip} {k : Nat} (h1 : ∀ a, a = 0x1E ∨ (0x26 ≤ a ∧ a ≤ 0x27) ∨ (0x2A ≤ a ∧ a ≤ 0x2B) →
    c'.mem (4 * k + 1) a = c.mem (4 * k + 1) a)
    (h3 : ∀ a, c'.mem (4 * k + 3) a = c.mem (4 * k + 3) a) (hr : c'.received k = c.received k) :
    RxSame c c' k := by
  constructor
  · unfold Chip.rxSize; rw [h1 _ (by omega)]
  · unfold Chip.rxRsr Mem.word; rw [h1 _ (by omega), h1 _ (by omega)]
  · unfold Chip.rxWr Mem.word; rw [h1 _ (by omega), h1 _ (by omega)]
  · exact h3
  · exact hr

theorem setReg_rxSame (c : Chip) (k j a v : Nat)
    (h : j ≠ k ∨ (a ≠ 0x1E ∧ a ≠ 0x1D ∧ (a < 0x25 ∨ 0x27 < a) ∧ (a < 0x29 ∨ 0x2B < a))) :
    RxSame c (c.setReg j a v) k := by
  apply RxSame.of_mem
  · intro x hx
    exact Mem.setWord_ne _ _ _ _ _ _ (by omega)
  · intro x
    exact Mem.setWord_ne _ _ _ _ _ _ (by omega)
  · rfl

theorem store_rxSame (c : Chip) (k b a : Nat) (x : UInt8) (hb : b ≠ 4 * k + 3)
    (h : b ≠ 4 * k + 1 ∨ (a ≠ 0x1E ∧ (a < 0x26 ∨ 0x27 < a) ∧ (a < 0x2A ∨ 0x2B < a))) :
    RxSame c { c with mem := c.mem.store b a x } k := by
  apply RxSame.of_mem
  · intro y hy
    show (c.mem.store b a x) _ _ = _
    unfold Mem.store; rw [if_neg (by omega)]
  · intro y
    show (c.mem.store b a x) _ _ = _
    unfold Mem.store; rw [if_neg (by omega)]
  · rfl

/-- The effect of an arrival on the fields of its socket. -/
theorem arrive_fields (c : Chip) (k : Nat) (bs : Bytes) (h : c.rxRsr k + bs.length ≤ c.rxSize k)
    (hs : c.rxSize k < 65536) :
    let c' := c.envStep (.arrive k bs)
    c'.rxSize k = c.rxSize k ∧ c'.rxRsr k = c.rxRsr k + bs.length ∧
    c'.rxWr k = (c.rxWr k + bs.length) % 65536 ∧ c'.received k = c.received k ++ bs ∧
    ∀ a, c'.mem (4 * k + 3) a = c.mem.ringWrite (4 * k + 3) (c.rxSize k) (c.rxWr k) bs (4 * k + 3) a := by
  simp only [Chip.envStep]
  rw [if_pos h]
  refine ⟨?_, ?_, ?_, by simp, ?_⟩
  · simp only [Chip.rxSize]
    rw [Mem.ringWrite_out _ _ _ _ _ _ _ (.inl (by omega))]
    simp only [Chip.setReg]
    rw [Mem.setWord_ne _ _ _ _ _ _ (by omega), Mem.setWord_ne _ _ _ _ _ _ (by omega)]
  · show Mem.word _ _ _ = _
    rw [Mem.ringWrite_word _ _ _ _ _ _ _ (by omega)]
    simp only [Chip.setReg]
    rw [Mem.word_setWord_ne _ _ _ _ _ _ (by omega), Mem.word_setWord]
    omega
  · show Mem.word _ _ _ = _
    rw [Mem.ringWrite_word _ _ _ _ _ _ _ (by omega)]
    simp only [Chip.setReg]
    rw [Mem.word_setWord]
    omega
  · intro a
    have key : ∀ (xs : Bytes) (m m' : Mem) (pos : Nat), (∀ a, m (4 * k + 3) a = m' (4 * k + 3) a) →
        ∀ a, m.ringWrite (4 * k + 3) (c.rxSize k) pos xs (4 * k + 3) a
          = m'.ringWrite (4 * k + 3) (c.rxSize k) pos xs (4 * k + 3) a := by
      intro xs
      induction xs with
      | nil => intro m m' pos h a; exact h a
      | cons x xs ih =>
        intro m m' pos h a
        apply ih
        intro a; unfold Mem.store; split <;> simp_all
    apply key
    intro a
    simp only [Chip.setReg]
    rw [Mem.setWord_ne _ _ _ _ _ _ (by omega), Mem.setWord_ne _ _ _ _ _ _ (by omega)]

theorem RxOk.wr_eq {c : Chip} {k base p : Nat} (hr : RxOk c k base p) (j : Nat) :
    (c.rxWr k + j) % c.rxSize k = (base + ((c.received k).length + j)) % c.rxSize k := by
  rw [hr.wr, Nat.add_mod, Nat.mod_mod_of_dvd _ (Nat.dvd_of_mod_eq_zero hr.dvd), ← Nat.add_mod, Nat.add_assoc]

theorem RxOk.arrive {c : Chip} {k base p : Nat} (hr : RxOk c k base p) (bs : Bytes) :
    RxOk (c.envStep (.arrive k bs)) k base p := by
  by_cases h : c.rxRsr k + bs.length ≤ c.rxSize k
  · obtain ⟨f1, f2, f3, f4, f5⟩ := arrive_fields c k bs h hr.size_lt
    have hsz : 0 < c.rxSize k := by
      rcases Nat.eq_zero_or_pos (c.rxSize k) with h0 | h0
      · have := hr.dvd; rw [h0] at this; omega
      · exact h0
    have hle := hr.le
    have hrsr := hr.rsr
    constructor
    · rw [f1]; exact hr.dvd
    · rw [f1]; exact hr.size_lt
    · rw [f4, List.length_append]; omega
    · rw [f4, f1, List.length_append]; omega
    · rw [f4, f2, List.length_append]; omega
    · rw [f3, f4, hr.wr, List.length_append]; omega
    · intro i hi hpi
      simp only [f4] at hi ⊢
      rw [f1, f5]
      rw [List.length_append] at hi
      by_cases hlt : i < (c.received k).length
      · rw [Mem.ringWrite_out]
        · rw [List.getElem_append_left hlt]; exact hr.data i hlt hpi
        · right
          intro j hj hc
          rw [hr.wr_eq] at hc
          have := mod_inj hc (by omega) (by omega)
          omega
      · rw [List.getElem_append_right (by omega)]
        have := Mem.ringWrite_in c.mem (4 * k + 3) (c.rxSize k) (c.rxWr k) bs (by omega)
          (i - (c.received k).length) (by omega)
        rw [hr.wr_eq, show (c.received k).length + (i - (c.received k).length) = i by omega] at this
        exact this
  · simp only [Chip.envStep]; rw [if_neg h]; exact hr

theorem arrive_other (c : Chip) (k j : Nat) (hj : j ≠ k) (bs : Bytes) :
    RxSame c (c.envStep (.arrive j bs)) k := by
  by_cases h : c.rxRsr j + bs.length ≤ c.rxSize j
  · simp only [Chip.envStep]; rw [if_pos h]
    apply RxSame.of_mem
    · intro a _
      simp only [Chip.setReg]
      rw [Mem.ringWrite_out _ _ _ _ _ _ _ (.inl (by omega)), Mem.setWord_ne _ _ _ _ _ _ (by omega),
        Mem.setWord_ne _ _ _ _ _ _ (by omega)]
    · intro a
      simp only [Chip.setReg]
      rw [Mem.ringWrite_out _ _ _ _ _ _ _ (.inl (by omega)), Mem.setWord_ne _ _ _ _ _ _ (by omega),
        Mem.setWord_ne _ _ _ _ _ _ (by omega)]
    · simp [hj.symm]
  · simp only [Chip.envStep]; rw [if_neg h]
    exact ⟨rfl, rfl, rfl, fun _ => rfl, rfl⟩

theorem RxOk.envStep {c : Chip} {k base p : Nat} (hr : RxOk c k base p) (e : EnvStep) :
    RxOk (c.envStep e) k base p := by
  cases e with
  | arrive j bs =>
    by_cases hj : j = k
    · subst hj; exact hr.arrive bs
    · exact (arrive_other c k j hj bs).rxOk hr
  | status j s => exact (store_rxSame c k _ _ s (by omega) (by omega)).rxOk hr
  | free j n => exact (setReg_rxSame c k j _ _ (by omega)).rxOk hr
  | raise j bits => exact (store_rxSame c k _ _ _ (by omega) (by omega)).rxOk hr

theorem RxOk.tick {w : World} {k base p : Nat} (hr : RxOk w.chip k base p) :
    RxOk w.tick.chip k base p := by
  unfold World.tick
  cases w.sched with
  | nil => exact hr
  | cons es rest =>
    simp only
    generalize w.chip = c at hr
    induction es generalizing c with
    | nil => exact hr
    | cons e es ih => exact ih _ (hr.envStep e)

theorem envStep_received_prefix (c : Chip) (e : EnvStep) (k : Nat) :
    c.received k <+: (c.envStep e).received k := by
  cases e with
  | arrive j bs =>
    simp only [Chip.envStep]
    split
    · simp only
      split
      · rename_i h; subst h; exact List.prefix_append _ _
      · exact List.prefix_rfl
    · exact List.prefix_rfl
  | status j s => exact List.prefix_rfl
  | free j n => exact List.prefix_rfl
  | raise j bits => exact List.prefix_rfl

theorem tick_received_prefix (w : World) (k : Nat) : w.chip.received k <+: w.tick.chip.received k := by
  unfold World.tick
  cases w.sched with
  | nil => exact List.prefix_rfl
  | cons es rest =>
    simp only
    generalize w.chip = c
    induction es generalizing c with
    | nil => exact List.prefix_rfl
    | cons e es ih => exact (envStep_received_prefix c e k).trans (ih _)

/-- The environment changes only status, interrupts, free size, received size, receive write
pointer and receive buffers. -/
theorem envStep_frame (c : Chip) (e : EnvStep) (b a : Nat) (hb : b % 4 ≠ 3)
    (ha : b % 4 = 1 → a ≠ 2 ∧ a ≠ 3 ∧ a ≠ 0x20 ∧ a ≠ 0x21 ∧ a ≠ 0x26 ∧ a ≠ 0x27 ∧ a ≠ 0x2A ∧ a ≠ 0x2B) :
    (c.envStep e).mem b a = c.mem b a := by
  cases e with
  | arrive j bs =>
    simp only [Chip.envStep]
    split
    · simp only [Chip.setReg]
      rw [Mem.ringWrite_out _ _ _ _ _ _ _ (.inl (by omega)), Mem.setWord_ne _ _ _ _ _ _ (by omega),
        Mem.setWord_ne _ _ _ _ _ _ (by omega)]
    · rfl
  | status j s =>
    show (c.mem.store _ _ _) b a = _
    unfold Mem.store; rw [if_neg (by omega)]
  | free j n => exact Mem.setWord_ne _ _ _ _ _ _ (by omega)
  | raise j bits =>
    show (c.mem.store _ _ _) b a = _
    unfold Mem.store; rw [if_neg (by omega)]

theorem tick_frame (w : World) (b a : Nat) (hb : b % 4 ≠ 3)
    (ha : b % 4 = 1 → a ≠ 2 ∧ a ≠ 3 ∧ a ≠ 0x20 ∧ a ≠ 0x21 ∧ a ≠ 0x26 ∧ a ≠ 0x27 ∧ a ≠ 0x2A ∧ a ≠ 0x2B) :
    w.tick.chip.mem b a = w.chip.mem b a := by
  unfold World.tick
  cases w.sched with
  | nil => rfl
  | cons es rest =>
    simp only
    generalize w.chip = c
    induction es generalizing c with
    | nil => rfl
    | cons e es ih => exact (ih _).trans (envStep_frame c e b a hb ha)

theorem envStep_sent (c : Chip) (e : EnvStep) : (c.envStep e).sent = c.sent := by
  cases e <;> simp only [Chip.envStep, Chip.setStatus, Chip.setReg]
  split <;> rfl

theorem tick_sent (w : World) : w.tick.chip.sent = w.chip.sent := by
  unfold World.tick
  cases w.sched with
  | nil => rfl
  | cons es rest =>
    simp only
    generalize w.chip = c
    induction es generalizing c with
    | nil => rfl
    | cons e es ih => exact (ih _).trans (envStep_sent c e)

theorem tick_rxRd (w : World) (k : Nat) : w.tick.chip.rxRd k = w.chip.rxRd k := by
  unfold Chip.rxRd Mem.word
  rw [tick_frame _ _ _ (by omega) (by omega), tick_frame _ _ _ (by omega) (by omega)]

theorem tick_rxSize (w : World) (k : Nat) : w.tick.chip.rxSize k = w.chip.rxSize k := by
  unfold Chip.rxSize
  rw [tick_frame _ _ _ (by omega) (by omega)]

theorem tick_txSize (w : World) (k : Nat) : w.tick.chip.txSize k = w.chip.txSize k := by
  unfold Chip.txSize
  rw [tick_frame _ _ _ (by omega) (by omega)]

theorem tick_txRd (w : World) (k : Nat) : w.tick.chip.txRd k = w.chip.txRd k := by
  unfold Chip.txRd Mem.word
  rw [tick_frame _ _ _ (by omega) (by omega), tick_frame _ _ _ (by omega) (by omega)]

theorem tick_txWr (w : World) (k : Nat) : w.tick.chip.txWr k = w.chip.txWr k := by
  unfold Chip.txWr Mem.word
  rw [tick_frame _ _ _ (by omega) (by omega), tick_frame _ _ _ (by omega) (by omega)]

/-! ## driver steps on the receive side -/

theorem setReg_word (c : Chip) (k a v : Nat) : (c.setReg k a v).mem.word (4 * k + 1) a = v % 65536 :=
  Mem.word_setWord _ _ _ _

theorem command_recv (c : Chip) (k : Nat) : c.command k SocketCommand.recv.code = c.cmdRecv k := rfl
theorem command_send (c : Chip) (k : Nat) : c.command k SocketCommand.send.code = c.cmdSend k := rfl

theorem RxOk.cmdRecv {c : Chip} {k base p q : Nat} (hr : RxOk c k base p)
    (hrd : c.rxRd k = (base + q) % 65536) (hpq : p ≤ q) (hq : q ≤ (c.received k).length) :
    RxOk (c.cmdRecv k) k base q := by
  have hs := hr.size_lt
  have hf := hr.fits
  have hwr := hr.wr
  have e : ∀ b a, (b ≠ 4 * k + 1 ∨ (a ≠ 0x26 ∧ a ≠ 0x27)) → (c.cmdRecv k).mem b a = c.mem b a := by
    intro b a h
    exact Mem.setWord_ne _ _ _ _ _ _ (by omega)
  have esz : (c.cmdRecv k).rxSize k = c.rxSize k := by
    unfold Chip.rxSize; rw [e _ _ (by omega)]
  have ewr : (c.cmdRecv k).rxWr k = c.rxWr k := by
    unfold Chip.rxWr Mem.word; rw [e _ _ (by omega), e _ _ (by omega)]
  have ersr : (c.cmdRecv k).rxRsr k = ((c.rxWr k + 65536 - c.rxRd k) % 65536) % 65536 :=
    Mem.word_setWord _ _ _ _
  constructor
  · rw [esz]; exact hr.dvd
  · rw [esz]; exact hs
  · exact hq
  · show (c.received k).length - q ≤ _
    rw [esz]; omega
  · show _ = (c.received k).length - q
    rw [ersr, hwr, hrd]
    omega
  · rw [ewr]; exact hwr
  · intro i hi hqi
    rw [esz, e _ _ (by omega)]
    exact hr.data i hi (by omega)

/-- Reading the ring gives the received bytes. -/
theorem RxOk.ringRead {c : Chip} {k base p : Nat} (hr : RxOk c k base p) (q n : Nat) (hq : p ≤ q)
    (hn : q + n ≤ (c.received k).length) :
    c.mem.ringRead (4 * k + 3) (c.rxSize k) (base + q) n = ((c.received k).drop q).take n := by
  apply List.ext_getElem
  · simp [Mem.ringRead]; omega
  · intro i h1 h2
    simp only [Mem.ringRead, List.length_map, List.length_range] at h1
    simp only [Mem.ringRead, List.getElem_map, List.getElem_range, List.getElem_take, List.getElem_drop]
    rw [Nat.add_assoc]
    exact hr.data (q + i) (by omega) (by omega)

theorem take_drop_prefix {α : Type} {l l' : List α} (h : l <+: l') (q n : Nat) (hn : q + n ≤ l.length) :
    (l.drop q).take n = (l'.drop q).take n := by
  obtain ⟨t, rfl⟩ := h
  rw [List.drop_append_of_le_length (by omega), List.take_append_of_le_length (by rw [List.length_drop]; omega)]

end Verif

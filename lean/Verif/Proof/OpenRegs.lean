import Verif.Proof.Open
/-!
# The registers of a socket while it is opened
-/
namespace Verif
open Hl Thm
open Spec (World worldBus Chip Mem EnvStep)

/-- The registers of a socket that only the driver writes, apart from the pointers and the interrupts. -/
def ConfigReg (a : Nat) : Prop := a = 0 ∨ (4 ≤ a ∧ a < 0x20) ∨ 0x2C ≤ a

/-- The configuration of socket `k` is left alone. -/
def KeepsConfig (k : Nat) {α : Type} (m : M World α) : Prop :=
  ∀ w a, ConfigReg a → (m w).2.chip.mem (4 * k + 1) a = w.chip.mem (4 * k + 1) a

theorem tick_config (w : World) (k a : Nat) (h : ConfigReg a) : w.tick.chip.mem (4 * k + 1) a = w.chip.mem (4 * k + 1) a := by
  unfold ConfigReg at h
  exact tick_frame _ _ _ (by omega) (by omega)

theorem ticks_config (j : Nat) (w : World) (k a : Nat) (h : ConfigReg a) :
    (World.ticks j w).chip.mem (4 * k + 1) a = w.chip.mem (4 * k + 1) a := by
  induction j generalizing w with
  | zero => rfl
  | succ n ih => exact (ih w.tick).trans (tick_config w k a h)

theorem _root_.Verif.Thm.ReadOnly.keepsConfig {α : Type} {m : M World α} (h : ReadOnly m) (k : Nat) : KeepsConfig k m := by
  intro w a ha; obtain ⟨j, hj⟩ := h w; rw [hj]; exact ticks_config j w k a ha

theorem setWord_config (m : Mem) (k r v a : Nat) (hr : 0x20 ≤ r ∧ r < 0x2B) (h : ConfigReg a) :
    (m.setWord (4 * k + 1) r v) (4 * k + 1) a = m (4 * k + 1) a := by
  unfold ConfigReg at h
  exact Mem.setWord_ne _ _ _ _ _ _ (by omega)

theorem store_config (m : Mem) (k a : Nat) (s : UInt8) (h : ConfigReg a) : (m.store (4 * k + 1) 3 s) (4 * k + 1) a = m (4 * k + 1) a := by
  unfold ConfigReg at h
  unfold Mem.store
  rw [if_neg (by omega)]

theorem command_config (c : Chip) (k a : Nat) (v : UInt8) (h : ConfigReg a) : (c.command k v).mem (4 * k + 1) a = c.mem (4 * k + 1) a := by
  unfold Chip.command
  repeat' split
  all_goals
    first
    | rfl
    | exact store_config _ _ _ _ h
    | (simp only [Chip.cmdOpen, Chip.cmdSend, Chip.cmdRecv, Chip.setStatus, Chip.resetReceived, Chip.setReg]
       simp only [store_config _ _ _ _ h, setWord_config _ k 0x20 _ _ (by omega) h, setWord_config _ k 0x22 _ _ (by omega) h,
         setWord_config _ k 0x24 _ _ (by omega) h, setWord_config _ k 0x26 _ _ (by omega) h, setWord_config _ k 0x28 _ _ (by omega) h,
         setWord_config _ k 0x2A _ _ (by omega) h])

theorem keepsConfig_cmd (sn : Sn) (v : SocketCommand) : KeepsConfig sn.idx (worldBus.setSnCr sn v) := by
  intro w a h
  rw [run_setSnCr]
  exact (command_config _ _ _ _ h).trans (tick_config w _ _ h)

/-- A call that succeeded, in parts. -/
theorem M.bind_ok_inv {σ α β : Type} {m : M σ α} {f : α → M σ β} {s s' : σ} {y : β} (h : (m >>= f) s = (.ok y, s')) :
    ∃ a s1, m s = (.ok a, s1) ∧ f a s1 = (.ok y, s') := by
  rw [M.bind_run] at h
  rcases e : m s with ⟨e | a, s1⟩
  · rw [e] at h; simp at h
  · rw [e] at h; exact ⟨a, s1, rfl, h⟩

/-- Nothing but the driver changes the status of socket `k`. -/
def Steady (k : Nat) (w : World) : Prop := ∀ es ∈ w.sched, ∀ s, EnvStep.status k s ∉ es

theorem envStep_status (c : Chip) (e : EnvStep) (k : Nat) (h : ∀ s, e ≠ .status k s) : (c.envStep e).status k = c.status k := by
  unfold Chip.status
  cases e with
  | arrive j bs =>
    simp only [Chip.envStep]
    split
    · simp only [Chip.setReg]
      rw [Mem.ringWrite_out _ _ _ _ _ _ _ (.inl (by omega)), Mem.setWord_ne _ _ _ _ _ _ (by omega),
        Mem.setWord_ne _ _ _ _ _ _ (by omega)]
    · rfl
  | status j s =>
    show (c.mem.store _ _ _) _ _ = _
    unfold Mem.store
    rw [if_neg]
    rintro ⟨h1, -⟩
    exact h s (by rw [show j = k by omega])
  | free j n => exact Mem.setWord_ne _ _ _ _ _ _ (by omega)
  | raise j bits =>
    show (c.mem.store _ _ _) _ _ = _
    unfold Mem.store; rw [if_neg (by omega)]

theorem Steady.tick {k : Nat} {w : World} (h : Steady k w) : Steady k w.tick ∧ w.tick.chip.status k = w.chip.status k := by
  unfold World.tick
  split
  · exact ⟨h, rfl⟩
  · rename_i es rest hs
    have hl := h
    unfold Steady at hl
    rw [hs] at hl
    refine ⟨fun e he => hl e (List.mem_cons_of_mem _ he), ?_⟩
    have key : ∀ (es : List EnvStep) (c : Chip), (∀ s, EnvStep.status k s ∉ es) → (es.foldl Chip.envStep c).status k = c.status k := by
      intro es
      induction es with
      | nil => intro c _; rfl
      | cons e es ih =>
        intro c he
        rw [List.foldl_cons, ih _ (fun bs hb => he bs (List.mem_cons_of_mem _ hb)),
          envStep_status _ _ _ (fun bs hb => he bs (by rw [hb]; exact List.mem_cons_self))]
    exact key es w.chip (hl es List.mem_cons_self)

theorem Steady.ticks {k : Nat} {w : World} (h : Steady k w) (j : Nat) : Steady k (World.ticks j w) := by
  induction j generalizing w with
  | zero => exact h
  | succ n ih => exact ih h.tick.1

/-- Polling a status that is already reached. -/
theorem waitStatus_now {sn : Sn} {w : World} {st : SocketStatus} (fuel : Nat) (h : Steady sn.idx w) (hst : SocketStatus.tryFrom (w.chip.status sn.idx) = .ok st) :
    waitStatus worldBus sn st (fuel + 1) w = (.ok (), w.tick) := by
  have e : worldBus.snSr sn w = (.ok (SocketStatus.tryFrom (w.tick.chip.status sn.idx)), w.tick) := run_snSr sn w
  rw [h.tick.2] at e
  unfold waitStatus
  rw [M.bind_ok e, if_pos hst]
  rfl

/-- Closing the socket, the beginning of each call that opens one. -/
theorem close_run (dbg : Bool) (fuel : Nat) (sn : Sn) (port : UInt16) (w : World) (h : Steady sn.idx w) :
    (∃ w', dbg = true ∧ ∀ {α : Type} (k : M World α), (do
        debugAssert dbg (portIsUnique worldBus sn port)
        worldBus.setSnCr sn .close
        waitStatus worldBus sn .closed (fuel + 1)
        k) w = (.error .panic, w')) ∨
    (∃ w', Steady sn.idx w' ∧ ∀ {α : Type} (k : M World α), (do
        debugAssert dbg (portIsUnique worldBus sn port)
        worldBus.setSnCr sn .close
        waitStatus worldBus sn .closed (fuel + 1)
        k) w = k w') := by
  have hro := readOnly_debugAssert dbg (readOnly_portIsUnique sn port)
  obtain ⟨j, hj⟩ := hro w
  rcases e : debugAssert dbg (portIsUnique worldBus sn port) w with ⟨e1 | a, w1⟩
  · left
    have hd : dbg = true ∧ e1 = .panic := by
      unfold debugAssert at e
      cases dbg with
      | false => rw [if_neg (by decide)] at e; cases e
      | true =>
        refine ⟨rfl, ?_⟩
        rw [if_pos rfl, M.bind_run] at e
        obtain ⟨b, hb⟩ : ∃ b, (portIsUnique worldBus sn port w).1 = .ok b := by
          unfold portIsUnique
          generalize sockets.filter (· ≠ sn) = l
          clear e hj hro
          induction l generalizing w with
          | nil => exact ⟨_, rfl⟩
          | cons s rest ih =>
            unfold portIsUniqueLoop
            rw [M.bind_ok (run_snPort s w)]
            split
            · rw [M.bind_ok (run_snSr s w.tick)]
              split
              · exact ih _ h.tick.1.tick.1
              · exact ⟨_, rfl⟩
            · exact ih _ h.tick.1
        rcases e2 : portIsUnique worldBus sn port w with ⟨e3 | b', w2⟩
        · rw [e2] at hb; cases hb
        · rw [e2] at e
          dsimp only at e
          split at e
          · cases e
          · cases e; rfl
    refine ⟨w1, hd.1, fun k => ?_⟩
    rw [M.bind_error e, hd.2]
  · right
    rw [e] at hj
    dsimp only at hj
    have h1 : Steady sn.idx w1 := by rw [hj]; exact h.ticks j
    refine ⟨World.tick { w1.tick with chip := w1.tick.chip.command sn.idx SocketCommand.close.code }, ?_, fun k => ?_⟩
    · exact Steady.tick (w := { w1.tick with chip := w1.tick.chip.command sn.idx SocketCommand.close.code }) h1.tick.1 |>.1
    · rw [M.bind_ok e, M.bind_ok (run_setSnCr sn .close w1), M.bind_ok]
      refine waitStatus_now (sn := sn) fuel h1.tick.1 ?_
      have : (w1.tick.chip.command sn.idx SocketCommand.close.code).status sn.idx = 0 := by
        show (w1.tick.chip.setStatus sn.idx 0).status sn.idx = 0
        simp [Chip.setStatus, Chip.status, Mem.store]
      rw [this]
      rfl

/-- What OPEN makes of the status. -/
theorem open_status (c : Chip) (k : Nat) (m : UInt8) (h : c.mem (4 * k + 1) 0 = m) :
    (c.command k SocketCommand.«open».code).status k = if m.toNat % 16 = 1 then 0x13 else if m.toNat % 16 = 2 then 0x22 else 0 := by
  show (c.cmdOpen k).status k = _
  unfold Chip.cmdOpen Chip.mode
  rw [h]
  simp [Chip.status, Chip.setStatus, Mem.store]

end Verif

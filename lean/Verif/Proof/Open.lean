import Verif.Proof.Prog
/-!
# Opening a UDP socket and sending one datagram
-/
namespace Verif
open Hl Spec Thm

/-- Preserves an idle transmit side with all of the buffer free. -/
def KeepsFull (k : Nat) {α : Type} (m : M World α) : Prop :=
  ∀ w, TxState w.chip k → w.chip.txFsr k = w.chip.txSize k →
    TxState (m w).2.chip k ∧ (m w).2.chip.txFsr k = (m w).2.chip.txSize k

theorem KeepsFull.bind {k : Nat} {α β : Type} {m : M World α} {f : α → M World β} (hm : KeepsFull k m)
    (hf : ∀ a, KeepsFull k (f a)) : KeepsFull k (m >>= f) := by
  intro w h1 h2
  rw [M.bind_run]
  have := hm w h1 h2
  rcases e : m w with ⟨e | a, w'⟩
  · rw [e] at this; exact this
  · rw [e] at this; exact hf a w' this.1 this.2

theorem keepsFull_tick {w : World} {k : Nat} (h1 : TxState w.chip k) (h2 : w.chip.txFsr k = w.chip.txSize k) :
    TxState w.tick.chip k ∧ w.tick.chip.txFsr k = w.tick.chip.txSize k := by
  refine ⟨h1.tick, Nat.le_antisymm h1.tick.fsr_le ?_⟩
  have := tick_txFsr_ge h1
  rw [tick_txSize]; omega

theorem ReadOnly.keepsFull {α : Type} {m : M World α} (h : Thm.ReadOnly m) (k : Nat) : KeepsFull k m := by
  intro w h1 h2
  obtain ⟨j, hj⟩ := h w
  rw [hj]
  clear hj
  induction j generalizing w with
  | zero => exact ⟨h1, h2⟩
  | succ n ih => exact ih w.tick (keepsFull_tick h1 h2).1 (keepsFull_tick h1 h2).2

theorem keepsFull_setSnDest (sn : Sn) (a : SockAddr) : KeepsFull sn.idx (worldBus.setSnDest sn a) := by
  intro w h1 h2
  obtain ⟨h3, h4⟩ := keepsFull_tick h1 h2
  rw [run_setSnDest]
  refine ⟨setDest_tx a h3, ?_⟩
  have hs := fun b x h => setDest_same w.tick.chip sn.idx a b x h
  show (setDest w.tick.chip sn.idx a).txFsr sn.idx = (setDest w.tick.chip sn.idx a).txSize sn.idx
  rw [show (setDest w.tick.chip sn.idx a).txFsr sn.idx = w.tick.chip.txFsr sn.idx by
      unfold Chip.txFsr Mem.word; rw [hs _ _ (by omega), hs _ _ (by omega)],
    show (setDest w.tick.chip sn.idx a).txSize sn.idx = w.tick.chip.txSize sn.idx by
      unfold Chip.txSize; rw [hs _ _ (by omega)]]
  exact h4

theorem keepsSize_setSnDest (sn : Sn) (a : SockAddr) : KeepsSize sn.idx (worldBus.setSnDest sn a) := by
  intro w
  rw [run_setSnDest, ← tick_rxSize w, ← tick_txSize w]
  unfold Chip.rxSize Chip.txSize
  dsimp only
  rw [setDest_same _ _ _ _ _ (by omega), setDest_same _ _ _ _ _ (by omega)]
  exact ⟨rfl, rfl⟩

/-- The state of a socket that was just opened: nothing consumed, transmit side idle and all free. -/
structure Fresh (c : Chip) (k n : Nat) : Prop where
  rx : RxState c k 0
  tx : TxState c k
  size : c.txSize k = n
  free : c.txFsr k = n

theorem open_fresh {α : Type} {pre : M World Unit} {sn : Sn} {post : M World α}
    (hpre : KeepsSize sn.idx pre) (hp1 : KeepsFresh sn.idx post) (hp2 : KeepsFull sn.idx post) (hp3 : KeepsSize sn.idx post)
    (w : World) (x : α) (w' : World) (hs : Sizes w.chip sn.idx)
    (h : (pre >>= fun _ => worldBus.setSnCr sn .«open» >>= fun _ => post) w = (.ok x, w')) :
    Fresh w'.chip sn.idx (w.chip.txSize sn.idx) := by
  obtain ⟨r1, r2⟩ := open_ok rfl hpre hp1 w x w' hs.rx_dvd hs.rx_lt hs.tx_dvd hs.tx_lt h
  rw [M.bind_run] at h
  have hz := hpre w
  rcases e : pre w with ⟨e | a, w1⟩
  · rw [e] at h; simp at h
  · rw [e] at h hz
    simp only at h hz
    rw [M.bind_ok (run_setSnCr sn .«open» w1)] at h
    have hc : w1.tick.chip.command sn.idx SocketCommand.«open».code = w1.tick.chip.cmdOpen sn.idx := rfl
    rw [hc] at h
    have e2 : (w1.tick.chip.cmdOpen sn.idx).txSize sn.idx = w.chip.txSize sn.idx := by
      rw [← hz.2, ← tick_txSize w1]
      simp [Chip.cmdOpen, Chip.setStatus, Chip.resetReceived, Chip.setReg, Chip.txSize, Mem.setWord, Mem.store]
    have e1 : (w1.tick.chip.cmdOpen sn.idx).txFsr sn.idx = w.chip.txSize sn.idx := by
      have : (w1.tick.chip.cmdOpen sn.idx).txFsr sn.idx = w1.tick.chip.txSize sn.idx % 65536 := by
        simp only [Chip.cmdOpen, Chip.setStatus, Chip.resetReceived, Chip.setReg, Chip.txFsr]
        unfold Mem.word
        simp [Mem.setWord, Mem.store]
        omega
      rw [this, tick_txSize, hz.2]
      have := hs.tx_lt
      omega
    have hf := cmdOpen_fresh w1.tick.chip sn.idx (by rw [tick_rxSize, hz.1]; exact hs.rx_dvd)
      (by rw [tick_rxSize, hz.1]; exact hs.rx_lt) (by rw [tick_txSize, hz.2]; exact hs.tx_dvd)
      (by rw [tick_txSize, hz.2]; exact hs.tx_lt)
    have k1 := hp2 { w1.tick with chip := w1.tick.chip.cmdOpen sn.idx } hf.2 (e1.trans e2.symm)
    have k2 := hp3 { w1.tick with chip := w1.tick.chip.cmdOpen sn.idx }
    rw [h] at k1 k2
    have k3 : w'.chip.txSize sn.idx = w.chip.txSize sn.idx := k2.2.trans e2
    exact ⟨r1, r2, k3, k1.2.trans k3⟩

theorem udpBind_fresh {dbg : Bool} {fuel : Nat} {sn : Sn} {port : UInt16} {w w' : World} (hs : Sizes w.chip sn.idx)
    (h : udpBind dbg fuel worldBus sn port w = (.ok (), w')) : Fresh w'.chip sn.idx (w.chip.txSize sn.idx) := by
  refine open_fresh (sn := sn) (pre := do
        debugAssert dbg (portIsUnique worldBus sn port)
        worldBus.setSnCr sn .close
        waitStatus worldBus sn .closed fuel
        worldBus.setSnPort sn port
        worldBus.setSnMr sn (SocketMode.default.setProtocol .udp))
      (.bind ((readOnly_debugAssert dbg (readOnly_portIsUnique sn port)).keepsSize _) fun _ =>
        .bind (keepsSize_setStatusCmd sn .close 0x00 fun _ => rfl) fun _ =>
        .bind ((readOnly_waitStatus _ _ _).keepsSize _) fun _ => .bind (keepsSize_setSnPort _ _) fun _ => keepsSize_setSnMr _ _)
      (post := waitStatus worldBus sn .udp fuel) ((readOnly_waitStatus _ _ _).keepsFresh _)
      (ReadOnly.keepsFull (readOnly_waitStatus _ _ _) _) ((readOnly_waitStatus _ _ _).keepsSize _) w () w' hs ?_
  simp only [bind_assoc]; exact h

/-- Only the status of the socket may change. -/
theorem keepsFull_cmd (sn : Sn) (v : SocketCommand) (s : UInt8)
    (h : ∀ c : Chip, c.command sn.idx v.code = c.setStatus sn.idx s ∨ c.command sn.idx v.code = c) :
    KeepsFull sn.idx (worldBus.setSnCr sn v) ∧ KeepsSize sn.idx (worldBus.setSnCr sn v) := by
  constructor
  · intro w h1 h2
    obtain ⟨h3, h4⟩ := keepsFull_tick h1 h2
    rw [run_setSnCr]
    rcases h w.tick.chip with e | e
    · rw [e]
      have hs : ∀ x, x ≠ 3 → (w.tick.chip.setStatus sn.idx s).mem (4 * sn.idx + 1) x = w.tick.chip.mem (4 * sn.idx + 1) x := by
        intro x hx
        unfold Chip.setStatus Mem.store
        dsimp only
        rw [if_neg (by omega)]
      have e1 : (w.tick.chip.setStatus sn.idx s).txSize sn.idx = w.tick.chip.txSize sn.idx := by unfold Chip.txSize; rw [hs _ (by omega)]
      have e2 : (w.tick.chip.setStatus sn.idx s).txRd sn.idx = w.tick.chip.txRd sn.idx := by
        unfold Chip.txRd Mem.word; rw [hs _ (by omega), hs _ (by omega)]
      have e3 : (w.tick.chip.setStatus sn.idx s).txWr sn.idx = w.tick.chip.txWr sn.idx := by
        unfold Chip.txWr Mem.word; rw [hs _ (by omega), hs _ (by omega)]
      have e4 : (w.tick.chip.setStatus sn.idx s).txFsr sn.idx = w.tick.chip.txFsr sn.idx := by
        unfold Chip.txFsr Mem.word; rw [hs _ (by omega), hs _ (by omega)]
      exact ⟨⟨by rw [e1]; exact h3.size_dvd, by rw [e1]; exact h3.size_lt, by rw [e2, e3]; exact h3.idle, by rw [e1, e4]; exact h3.fsr_le⟩,
        e4.trans (h4.trans e1.symm)⟩
    · rw [e]; exact ⟨h3, h4⟩
  · intro w
    rw [run_setSnCr]
    have := setStatus_size w.tick.chip sn.idx sn.idx s
    rcases h w.tick.chip with e | e
    · rw [e]
      dsimp only
      rw [this.1, this.2]
      exact ⟨tick_rxSize w _, tick_txSize w _⟩
    · rw [e]
      exact ⟨tick_rxSize w _, tick_txSize w _⟩

theorem command_connect (c : Chip) (k : Nat) :
    c.command k SocketCommand.connect.code = c.setStatus k 0x15 ∨ c.command k SocketCommand.connect.code = c := by
  show (if c.status k = 0x13 then c.setStatus k 0x15 else c) = _ ∨ (if c.status k = 0x13 then c.setStatus k 0x15 else c) = _
  split <;> simp

theorem tcpConnect_fresh {dbg : Bool} {fuel : Nat} {sn : Sn} {port : UInt16} {addr : SockAddr} {w w' : World} (hs : Sizes w.chip sn.idx)
    (h : tcpConnect dbg fuel worldBus sn port addr w = (.ok (), w')) : Fresh w'.chip sn.idx (w.chip.txSize sn.idx) := by
  refine open_fresh (sn := sn) (keepsSize_open_prefix dbg fuel sn port (SocketMode.default.setProtocol .tcp))
    (post := worldBus.setSnDest sn addr >>= fun _ => waitStatus worldBus sn .init fuel >>= fun _ =>
      worldBus.setSnCr sn .connect)
    (.bind (keepsFresh_setSnDest sn addr) fun _ => .bind ((readOnly_waitStatus _ _ _).keepsFresh _) fun _ =>
      keepsFresh_cmd sn .connect 0x15 fun c => command_connect c _)
    (.bind (keepsFull_setSnDest sn addr) fun _ => .bind (ReadOnly.keepsFull (readOnly_waitStatus _ _ _) _) fun _ =>
      (keepsFull_cmd sn .connect 0x15 fun c => command_connect c _).1)
    (.bind (keepsSize_setSnDest sn addr) fun _ => .bind ((readOnly_waitStatus _ _ _).keepsSize _) fun _ =>
      (keepsFull_cmd sn .connect 0x15 fun c => command_connect c _).2) w () w' hs ?_
  simp only [bind_assoc]; exact h

theorem keepsSent_tcpConnect (dbg : Bool) (fuel : Nat) (sn : Sn) (port : UInt16) (addr : SockAddr) :
    KeepsSent (tcpConnect dbg fuel worldBus sn port addr) := by
  unfold tcpConnect
  exact .bind (ReadOnly.keepsSent (Thm.readOnly_debugAssert dbg (Thm.readOnly_portIsUnique sn port))) fun _ =>
    .bind (keepsSent_cmd sn .close fun _ => rfl) fun _ => .bind (ReadOnly.keepsSent (Thm.readOnly_waitStatus _ _ _)) fun _ =>
    .bind (keepsSent_setSnMr _ _) fun _ => .bind (keepsSent_setSnPort _ _) fun _ => .bind (keepsSent_cmd sn .«open» fun _ => rfl) fun _ =>
    .bind (keepsSent_setSnDest _ _) fun _ => .bind (ReadOnly.keepsSent (Thm.readOnly_waitStatus _ _ _)) fun _ =>
    keepsSent_cmd sn .connect fun c => by rcases command_connect c sn.idx with e | e <;> rw [e] <;> rfl

/-! ## Writes to the other registers of a socket -/

theorem writeBytes_plain (c : Chip) (k a : Nat) (bs : Bytes) (h1 : 4 ≤ a) (h2 : a + bs.length ≤ 0x1E) :
    let c' := c.writeBytes (4 * k + 1) a bs
    c'.sent = c.sent ∧ c'.received = c.received ∧
      ∀ b x, (b ≠ 4 * k + 1 ∨ x < a ∨ a + bs.length ≤ x) → c'.mem b x = c.mem b x := by
  induction bs generalizing c a with
  | nil => exact ⟨rfl, rfl, fun _ _ _ => rfl⟩
  | cons y ys ih =>
    simp only [List.length_cons] at h2 ⊢
    have hro : Chip.readOnly a = false := by
      unfold Chip.readOnly
      simp only [Bool.or_eq_false_iff, Bool.and_eq_false_iff, decide_eq_false_iff_not]
      omega
    have e : c.writeBytes (4 * k + 1) a (y :: ys)
        = ({ c with mem := c.mem.store (4 * k + 1) a y } : Chip).writeBytes (4 * k + 1) (a + 1) ys := by
      rw [Chip.writeBytes, show a % 65536 = a by omega, writeByte_plain _ _ _ _ (by omega) (by omega) hro]
    rw [e]
    obtain ⟨i1, i2, i3⟩ := ih { c with mem := c.mem.store (4 * k + 1) a y } (a + 1) (by omega) (by omega)
    refine ⟨i1, i2, fun b x hx => ?_⟩
    rw [i3 b x (by omega)]
    simp only [Mem.store]
    rw [if_neg (by omega)]

theorem keepsSize_plain (sn : Sn) (a : UInt16) (bs : Bytes) (h1 : 4 ≤ a.toNat) (h2 : a.toNat + bs.length ≤ 0x1E) :
    KeepsSize sn.idx (worldBus.write a sn.block bs) := by
  intro w
  rw [worldBus_write, Sn.block_idx]
  obtain ⟨_, _, i3⟩ := writeBytes_plain w.tick.chip sn.idx a.toNat bs h1 h2
  dsimp only at i3 ⊢
  rw [← tick_rxSize w, ← tick_txSize w]
  unfold Chip.rxSize Chip.txSize
  rw [i3 _ _ (by omega), i3 _ _ (by omega)]
  exact ⟨rfl, rfl⟩

theorem keepsSent_plain (sn : Sn) (a : UInt16) (bs : Bytes) (h1 : 4 ≤ a.toNat) (h2 : a.toNat + bs.length ≤ 0x1E) :
    KeepsSent (worldBus.write a sn.block bs) := by
  intro w
  rw [worldBus_write, Sn.block_idx]
  exact (writeBytes_plain w.tick.chip sn.idx a.toNat bs h1 h2).1.trans (tick_sent w)

theorem keepsSize_setSnDhar (sn : Sn) (v : Eui48) : KeepsSize sn.idx (worldBus.setSnDhar sn v) :=
  keepsSize_plain sn _ _ (by decide) (by show _ + 6 ≤ _; decide)
theorem keepsSize_setSnTtl (sn : Sn) (v : UInt8) : KeepsSize sn.idx (worldBus.setSnTtl sn v) :=
  keepsSize_plain sn _ _ (by decide) (by show _ + 1 ≤ _; decide)
theorem keepsSent_setSnDhar (sn : Sn) (v : Eui48) : KeepsSent (worldBus.setSnDhar sn v) :=
  keepsSent_plain sn _ _ (by decide) (by show _ + 6 ≤ _; decide)
theorem keepsSent_setSnTtl (sn : Sn) (v : UInt8) : KeepsSent (worldBus.setSnTtl sn v) :=
  keepsSent_plain sn _ _ (by decide) (by show _ + 1 ≤ _; decide)

/-! ## Sending one datagram -/

/-- Set the destination, write a message through a writer. -/
def writeTo (sn : Sn) (dest : SockAddr) (prog : WProg α) : M World (α × Ptrs) := do
  worldBus.setSnDest sn dest
  let r ← socketWriter worldBus sn
  onWriter worldBus r prog

theorem writeTo_run {α : Type} {sn : Sn} {w : World} {size : Nat} (h : Fresh w.chip sn.idx size) (dest : SockAddr) (prog : WProg α) :
    ∃ buf : Bytes, buf.length = size ∧
      (∀ e c, prog.run imageOps ⟨buf, 0⟩ = (.error e, c) →
        ∃ w', writeTo sn dest prog w = (.error e, w') ∧ w'.chip.sent = w.chip.sent) ∧
      (∀ a c, prog.run imageOps ⟨buf, 0⟩ = (.ok a, c) → ∃ r w', writeTo sn dest prog w = (.ok (a, r), w') ∧
        w'.chip.sent = w.chip.sent ∧
        ∃ w'', writerSend worldBus r w' = (.ok (), w'') ∧
          w''.chip.sent = w.chip.sent ++ [⟨sn.idx, dest.ip.octets, dest.port.toNat, c.buf.take c.pos⟩]) := by
  have hd := run_setSnDest sn dest w
  have hT := keepsFull_setSnDest sn dest w h.tx (h.free.trans h.size.symm)
  rw [hd] at hT
  obtain ⟨hT1, hT2⟩ := hT
  dsimp only at hT1 hT2
  obtain ⟨buf, b1, b2, b3, b4⟩ := writer_run sn { w.tick with chip := setDest w.tick.chip sn.idx dest } hT1 prog
  dsimp only at b1 b2 b3 b4
  have hsz : (setDest w.tick.chip sn.idx dest).txSize sn.idx = size := by
    rw [← h.size, ← tick_txSize w]
    unfold Chip.txSize; rw [setDest_same _ _ _ _ _ (by omega)]
  have hsent : (setDest w.tick.chip sn.idx dest).sent = w.chip.sent := tick_sent w
  rw [setDest_ip, setDest_port] at b4
  rw [hsent] at b3 b4
  refine ⟨buf, by omega, fun e c hc => ?_, fun a c hc => ?_⟩
  · obtain ⟨w', k1, k2⟩ := b3 e c hc
    exact ⟨w', by unfold writeTo; rw [M.bind_ok hd]; exact k1, k2⟩
  · obtain ⟨r, w', k1, k2, w'', k3, k4, _⟩ := b4 a c hc
    exact ⟨r, w', by unfold writeTo; rw [M.bind_ok hd]; exact k1, k2, w'', k3, k4⟩

end Verif

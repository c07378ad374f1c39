import Verif.Thm.HlUdp
/-!
# Reasoning about programs over readers and writers
-/
namespace Verif
open Hl Spec

theorem RProg.run_bind {ρ α β : Type} (ops : Reader ρ) (p : RProg α) (f : α → RProg β) :
    (p >>= f).run ops = (p.run ops >>= fun a => (f a).run ops) := by
  show (RProg.bind p f).run ops = _
  funext s
  induction p generalizing s with
  | ret r => cases r <;> rfl
  | read n k ih => exact ih _ _
  | readExact n k ih => exact ih _ _
  | seek pos k ih => exact ih _ _
  | rewind k ih => exact ih _
  | streamLen k ih =>
    show (ops.streamLen >>= fun a => ((k a).bind f).run ops) s = ((ops.streamLen >>= fun a => (k a).run ops) >>= fun a => (f a).run ops) s
    rw [bind_assoc, funext fun a => funext (ih a)]
  | streamPosition k ih =>
    show (ops.streamPosition >>= fun a => ((k a).bind f).run ops) s = ((ops.streamPosition >>= fun a => (k a).run ops) >>= fun a => (f a).run ops) s
    rw [bind_assoc, funext fun a => funext (ih a)]
  | remain k ih =>
    show (ops.remain >>= fun a => ((k a).bind f).run ops) s = ((ops.remain >>= fun a => (k a).run ops) >>= fun a => (f a).run ops) s
    rw [bind_assoc, funext fun a => funext (ih a)]

theorem WProg.run_bind {ρ α β : Type} (ops : Writer ρ) (p : WProg α) (f : α → WProg β) :
    (p >>= f).run ops = (p.run ops >>= fun a => (f a).run ops) := by
  show (WProg.bind p f).run ops = _
  funext s
  induction p generalizing s with
  | ret r => cases r <;> rfl
  | write n k ih => exact ih _ _
  | writeAll n k ih => exact ih _ _
  | seek pos k ih => exact ih _ _
  | rewind k ih => exact ih _
  | streamLen k ih =>
    show (ops.streamLen >>= fun a => ((k a).bind f).run ops) s = ((ops.streamLen >>= fun a => (k a).run ops) >>= fun a => (f a).run ops) s
    rw [bind_assoc, funext fun a => funext (ih a)]
  | streamPosition k ih =>
    show (ops.streamPosition >>= fun a => ((k a).bind f).run ops) s = ((ops.streamPosition >>= fun a => (k a).run ops) >>= fun a => (f a).run ops) s
    rw [bind_assoc, funext fun a => funext (ih a)]
  | remain k ih =>
    show (ops.remain >>= fun a => ((k a).bind f).run ops) s = ((ops.remain >>= fun a => (k a).run ops) >>= fun a => (f a).run ops) s
    rw [bind_assoc, funext fun a => funext (ih a)]

theorem RProg.run_pure {ρ α : Type} (ops : Reader ρ) (a : α) (s : ρ) : (pure a : RProg α).run ops s = (.ok a, s) := rfl
theorem RProg.run_throw {ρ α : Type} (ops : Reader ρ) (e : Err) (s : ρ) :
    (RProg.throw e : RProg α).run ops s = (.error e, s) := rfl
theorem WProg.run_pure {ρ α : Type} (ops : Writer ρ) (a : α) (s : ρ) : (pure a : WProg α).run ops s = (.ok a, s) := rfl
theorem WProg.run_throw {ρ α : Type} (ops : Writer ρ) (e : Err) (s : ρ) :
    (WProg.throw e : WProg α).run ops s = (.error e, s) := rfl

/-- Sequencing, in rewriting form: the first part succeeds. -/
theorem RProg.bind_ok {ρ α β : Type} {ops : Reader ρ} {p : RProg α} {f : α → RProg β} {s s' : ρ} {a : α}
    (h : p.run ops s = (.ok a, s')) : (p >>= f).run ops s = (f a).run ops s' := by
  rw [RProg.run_bind, M.bind_ok h]
theorem RProg.bind_error {ρ α β : Type} {ops : Reader ρ} {p : RProg α} {f : α → RProg β} {s s' : ρ} {e : Err}
    (h : p.run ops s = (.error e, s')) : (p >>= f).run ops s = (.error e, s') := by
  rw [RProg.run_bind, M.bind_error h]
theorem WProg.bind_ok {ρ α β : Type} {ops : Writer ρ} {p : WProg α} {f : α → WProg β} {s s' : ρ} {a : α}
    (h : p.run ops s = (.ok a, s')) : (p >>= f).run ops s = (f a).run ops s' := by
  rw [WProg.run_bind, M.bind_ok h]
theorem WProg.bind_error {ρ α β : Type} {ops : Writer ρ} {p : WProg α} {f : α → WProg β} {s s' : ρ} {e : Err}
    (h : p.run ops s = (.error e, s')) : (p >>= f).run ops s = (.error e, s') := by
  rw [WProg.run_bind, M.bind_error h]

theorem RProg.bind_inv {ρ α β : Type} {ops : Reader ρ} {p : RProg α} {f : α → RProg β} {s s' : ρ} {b : β}
    (h : (p >>= f).run ops s = (.ok b, s')) :
    ∃ a s1, p.run ops s = (.ok a, s1) ∧ (f a).run ops s1 = (.ok b, s') := by
  rw [RProg.run_bind, M.bind_run] at h
  rcases e : p.run ops s with ⟨e' | a, s1⟩
  · rw [e] at h; exact absurd h nofun
  · rw [e] at h; exact ⟨a, s1, rfl, h⟩

theorem WProg.bind_inv {ρ α β : Type} {ops : Writer ρ} {p : WProg α} {f : α → WProg β} {s s' : ρ} {b : β}
    (h : (p >>= f).run ops s = (.ok b, s')) :
    ∃ a s1, p.run ops s = (.ok a, s1) ∧ (f a).run ops s1 = (.ok b, s') := by
  rw [WProg.run_bind, M.bind_run] at h
  rcases e : p.run ops s with ⟨e' | a, s1⟩
  · rw [e] at h; exact absurd h nofun
  · rw [e] at h; exact ⟨a, s1, rfl, h⟩

/-! ## Steps on a cursor -/

theorem cur_readExact_inv {n : Nat} {d x : Bytes} {p : Nat} {c : Cursor}
    (h : (RProg.doReadExact n).run cursorOps ⟨d, p⟩ = (.ok x, c)) :
    n ≤ d.length - p ∧ x = (d.drop p).take n ∧ c = ⟨d, p + n⟩ := by
  change (if n ≤ d.length - p then
        ((.ok ((d.drop p).take n), ⟨d, p + n⟩) : Except Err Bytes × Cursor)
        else (.error .unexpectedEof, ⟨d, p⟩)) = _ at h
  split at h
  · rename_i hn
    injection h with h1 h2
    injection h1 with h1
    exact ⟨hn, h1.symm, h2.symm⟩
  · exact absurd h nofun

theorem cur_seekStart_inv {o : UInt16} {d : Bytes} {p : Nat} {c : Cursor} {u : Unit}
    (h : (RProg.doSeek (.start o)).run cursorOps ⟨d, p⟩ = (.ok u, c)) : o.toNat ≤ d.length ∧ c = ⟨d, o.toNat⟩ := by
  change (if (0 : Int) ≤ (o.toNat : Int) ∧ (o.toNat : Int) ≤ d.length then
        ((.ok (), ⟨d, (o.toNat : Int).toNat⟩) : Except Err Unit × Cursor)
        else (.error .unexpectedEof, ⟨d, p⟩)) = _ at h
  split at h
  · rename_i hn
    injection h with h1 h2
    exact ⟨by omega, h2.symm.trans (by simp)⟩
  · exact absurd h nofun

theorem cur_read (n : Nat) (d : Bytes) (p : Nat) :
    (RProg.doRead n).run cursorOps ⟨d, p⟩ = (.ok ((d.drop p).take n), ⟨d, p + ((d.drop p).take n).length⟩) := rfl

theorem cur_readExact {n : Nat} {d : Bytes} {p : Nat} (h : n ≤ d.length - p) :
    (RProg.doReadExact n).run cursorOps ⟨d, p⟩ = (.ok ((d.drop p).take n), ⟨d, p + n⟩) := by
  show (cursorOps.readExact n ⟨d, p⟩) = _
  exact if_pos h

theorem cur_readExact_eof {n : Nat} {d : Bytes} {p : Nat} (h : ¬ n ≤ d.length - p) :
    (RProg.doReadExact n).run cursorOps ⟨d, p⟩ = (.error .unexpectedEof, ⟨d, p⟩) := by
  show (cursorOps.readExact n ⟨d, p⟩) = _
  exact if_neg h

theorem cur_seekStart {o : UInt16} {d : Bytes} {p : Nat} (h : o.toNat ≤ d.length) :
    (RProg.doSeek (.start o)).run cursorOps ⟨d, p⟩ = (.ok (), ⟨d, o.toNat⟩) := by
  show (cursorOps.seek (.start o) ⟨d, p⟩) = _
  unfold cursorOps seekTarget
  simp [h]

theorem cur_seekStart_eof {o : UInt16} {d : Bytes} {p : Nat} (h : ¬ o.toNat ≤ d.length) :
    (RProg.doSeek (.start o)).run cursorOps ⟨d, p⟩ = (.error .unexpectedEof, ⟨d, p⟩) := by
  show (cursorOps.seek (.start o) ⟨d, p⟩) = _
  unfold cursorOps seekTarget
  simp [h]

theorem cur_seekCurrent {o : Int16} {d : Bytes} {p q : Nat} (h : (p : Int) + o.toInt = q) (hq : q ≤ d.length) :
    (RProg.doSeek (.current o)).run cursorOps ⟨d, p⟩ = (.ok (), ⟨d, q⟩) := by
  show (cursorOps.seek (.current o) ⟨d, p⟩) = _
  unfold cursorOps seekTarget
  simp only
  rw [if_pos (by omega)]
  congr 2
  omega

theorem cur_seekCurrent_eof {o : Int16} {d : Bytes} {p : Nat} (h : (p : Int) + o.toInt > d.length) :
    (RProg.doSeek (.current o)).run cursorOps ⟨d, p⟩ = (.error .unexpectedEof, ⟨d, p⟩) := by
  show (cursorOps.seek (.current o) ⟨d, p⟩) = _
  unfold cursorOps seekTarget
  simp only
  rw [if_neg (by omega)]

theorem cur_streamPosition (d : Bytes) (p : Nat) :
    RProg.doStreamPosition.run cursorOps ⟨d, p⟩ = (.ok (UInt16.ofNat p), ⟨d, p⟩) := rfl
theorem cur_streamLen (d : Bytes) (p : Nat) :
    RProg.doStreamLen.run cursorOps ⟨d, p⟩ = (.ok (UInt16.ofNat d.length), ⟨d, p⟩) := rfl
theorem cur_remain (d : Bytes) (p : Nat) :
    RProg.doRemain.run cursorOps ⟨d, p⟩ = (.ok (UInt16.ofNat (d.length - p)), ⟨d, p⟩) := rfl
theorem cur_rewind (d : Bytes) (p : Nat) : RProg.doRewind.run cursorOps ⟨d, p⟩ = (.ok (), ⟨d, 0⟩) := rfl

/-- A program never moves a cursor outside its data. -/
theorem cur_inv {α : Type} (prog : RProg α) (c : Cursor) (h : c.pos ≤ c.data.length) :
    (prog.run cursorOps c).2.data = c.data ∧ (prog.run cursorOps c).2.pos ≤ c.data.length := by
  induction prog generalizing c with
  | ret r => exact ⟨rfl, h⟩
  | read n k ih =>
    refine ih _ (cursorOps.read n c).2 ?_
    show c.pos + ((c.data.drop c.pos).take n).length ≤ c.data.length
    rw [List.length_take, List.length_drop]; omega
  | readExact n k ih =>
    have : (cursorOps.readExact n c).2.data = c.data ∧ (cursorOps.readExact n c).2.pos ≤ c.data.length := by
      show (if n ≤ c.data.length - c.pos then
        ((.ok ((c.data.drop c.pos).take n), { c with pos := c.pos + n }) : Except Err Bytes × Cursor)
        else (.error .unexpectedEof, c)).2.data = _ ∧ (if n ≤ c.data.length - c.pos then
        ((.ok ((c.data.drop c.pos).take n), { c with pos := c.pos + n }) : Except Err Bytes × Cursor)
        else (.error .unexpectedEof, c)).2.pos ≤ _
      split
      · exact ⟨rfl, by simp only; omega⟩
      · exact ⟨rfl, h⟩
    have g := ih (cursorOps.readExact n c).1 (cursorOps.readExact n c).2 (by rw [this.1]; exact this.2)
    rw [this.1] at g
    exact g
  | seek pos k ih =>
    have : (cursorOps.seek pos c).2.data = c.data ∧ (cursorOps.seek pos c).2.pos ≤ c.data.length := by
      unfold cursorOps
      simp only
      split
      · exact ⟨rfl, by simp only; omega⟩
      · exact ⟨rfl, h⟩
    have g := ih (cursorOps.seek pos c).1 (cursorOps.seek pos c).2 (by rw [this.1]; exact this.2)
    rw [this.1] at g
    exact g
  | rewind k ih => exact ih ⟨c.data, 0⟩ (Nat.zero_le _)
  | streamLen k ih => exact ih _ c h
  | streamPosition k ih => exact ih _ c h
  | remain k ih => exact ih _ c h

/-! ## Steps on an image -/

theorem img_writeAll {bs : Bytes} {c : Image} (h : bs.length ≤ c.buf.length - c.pos) :
    (WProg.doWriteAll bs).run imageOps c = (.ok (), c.put bs) := by
  show (imageOps.writeAll bs c) = _
  exact if_pos h

theorem img_writeAll_oom {bs : Bytes} {c : Image} (h : ¬ bs.length ≤ c.buf.length - c.pos) :
    (WProg.doWriteAll bs).run imageOps c = (.error .outOfMemory, c) := by
  show (imageOps.writeAll bs c) = _
  exact if_neg h

theorem img_write (bs : Bytes) (c : Image) :
    (WProg.doWrite bs).run imageOps c = (.ok (UInt16.ofNat (min (c.buf.length - c.pos) bs.length)),
      c.put (bs.take (min (c.buf.length - c.pos) bs.length))) := rfl

theorem img_seekStart {o : UInt16} {c : Image} (h : o.toNat ≤ c.buf.length) :
    (WProg.doSeek (.start o)).run imageOps c = (.ok (), { c with pos := o.toNat }) := by
  show (imageOps.seek (.start o) c) = _
  unfold imageOps seekTarget
  simp [h]

theorem img_seekStart_eof {o : UInt16} {c : Image} (h : ¬ o.toNat ≤ c.buf.length) :
    (WProg.doSeek (.start o)).run imageOps c = (.error .unexpectedEof, c) := by
  show (imageOps.seek (.start o) c) = _
  unfold imageOps seekTarget
  simp [h]

theorem img_streamPosition (c : Image) : WProg.doStreamPosition.run imageOps c = (.ok (UInt16.ofNat c.pos), c) := rfl
theorem img_streamLen (c : Image) : WProg.doStreamLen.run imageOps c = (.ok (UInt16.ofNat c.buf.length), c) := rfl
theorem img_remain (c : Image) : WProg.doRemain.run imageOps c = (.ok (UInt16.ofNat (c.buf.length - c.pos)), c) := rfl
theorem img_rewind (c : Image) : WProg.doRewind.run imageOps c = (.ok (), { c with pos := 0 }) := rfl

theorem put_take {c : Image} {bs : Bytes} (h : c.pos + bs.length ≤ c.buf.length) :
    (c.put bs).buf.take (c.put bs).pos = c.buf.take c.pos ++ bs := by
  unfold Image.put
  simp only
  rw [List.take_append_of_le_length (by simp only [List.length_append, List.length_take]; omega),
    List.take_of_length_le (by simp only [List.length_append, List.length_take]; omega)]

/-- An image in which the `buf.take pos` written so far is `out`. -/
structure Written (c : Image) (n : Nat) (out : Bytes) : Prop where
  len : c.buf.length = n
  pos : c.pos = out.length
  le : c.pos ≤ n
  out : c.buf.take c.pos = out

theorem Written.put {c : Image} {n : Nat} {out : Bytes} (h : Written c n out) {bs : Bytes} (hb : bs.length ≤ n - c.pos) :
    Written (c.put bs) n (out ++ bs) := by
  have h1 := h.len; have h2 := h.le
  have hp : c.pos + bs.length ≤ c.buf.length := by omega
  refine ⟨by rw [put_length _ _ hp]; exact h1, ?_, ?_, ?_⟩
  · show c.pos + bs.length = _; rw [List.length_append, h.pos]
  · show c.pos + bs.length ≤ _; omega
  · rw [put_take hp, h.out]

theorem Written.start (buf : Bytes) : Written ⟨buf, 0⟩ buf.length [] := ⟨rfl, rfl, Nat.zero_le _, rfl⟩

/-- `write_all` appends to what has been written, if there is room. -/
theorem Written.writeAll {c : Image} {n : Nat} {out : Bytes} (h : Written c n out) {bs : Bytes} (hb : out.length + bs.length ≤ n) :
    ∃ c', (WProg.doWriteAll bs).run imageOps c = (.ok (), c') ∧ Written c' n (out ++ bs) := by
  have h1 := h.len; have h2 := h.pos
  exact ⟨_, img_writeAll (by omega), h.put (by omega)⟩

theorem Written.writeAll_oom {c : Image} {n : Nat} {out : Bytes} (h : Written c n out) {bs : Bytes} (hb : ¬ out.length + bs.length ≤ n) :
    (WProg.doWriteAll bs).run imageOps c = (.error .outOfMemory, c) := by
  have h1 := h.len; have h2 := h.pos; have h3 := h.le
  exact img_writeAll_oom (by omega)

/-! ## What a client sees of a writer and a reader on the chip -/

/-- Keeps the log of transmissions. -/
def KeepsSent {α : Type} (m : M World α) : Prop := ∀ w, (m w).2.chip.sent = w.chip.sent

theorem KeepsSent.bind {α β : Type} {m : M World α} {f : α → M World β} (hm : KeepsSent m) (hf : ∀ a, KeepsSent (f a)) :
    KeepsSent (m >>= f) := by
  intro w
  rw [M.bind_run]
  have := hm w
  rcases e : m w with ⟨e | a, w'⟩
  · rw [e] at this; exact this
  · rw [e] at this; exact (hf a w').trans this

theorem ReadOnly.keepsSent {α : Type} {m : M World α} (h : Thm.ReadOnly m) : KeepsSent m := by
  intro w
  obtain ⟨j, hj⟩ := h w
  rw [hj]
  clear hj
  induction j generalizing w with
  | zero => rfl
  | succ n ih => exact (ih w.tick).trans (tick_sent w)

theorem keepsSent_setSnPort (sn : Sn) (v : UInt16) : KeepsSent (worldBus.setSnPort sn v) := by
  intro w; rw [run_setSnPort]; exact tick_sent w
theorem keepsSent_setSnMr (sn : Sn) (v : SocketMode) : KeepsSent (worldBus.setSnMr sn v) := by
  intro w; rw [run_setSnMr]; exact tick_sent w
theorem keepsSent_setSnDest (sn : Sn) (v : SockAddr) : KeepsSent (worldBus.setSnDest sn v) := by
  intro w; rw [run_setSnDest]; exact tick_sent w
theorem keepsSent_cmd (sn : Sn) (v : SocketCommand) (h : ∀ c : Chip, (c.command sn.idx v.code).sent = c.sent) :
    KeepsSent (worldBus.setSnCr sn v) := by
  intro w; rw [run_setSnCr]; exact (h _).trans (tick_sent w)

theorem keepsSent_udpBind (dbg : Bool) (fuel : Nat) (sn : Sn) (port : UInt16) : KeepsSent (udpBind dbg fuel worldBus sn port) :=
  .bind (ReadOnly.keepsSent (Thm.readOnly_debugAssert dbg (Thm.readOnly_portIsUnique sn port))) fun _ =>
  .bind (keepsSent_cmd sn .close fun _ => rfl) fun _ =>
  .bind (ReadOnly.keepsSent (Thm.readOnly_waitStatus _ _ _)) fun _ =>
  .bind (keepsSent_setSnPort _ _) fun _ => .bind (keepsSent_setSnMr _ _) fun _ =>
  .bind (keepsSent_cmd sn .«open» fun _ => rfl) fun _ => ReadOnly.keepsSent (Thm.readOnly_waitStatus _ _ _)

theorem tick_txFsr_ge' (w : World) (k m : Nat) (hlt : w.chip.txSize k < 65536)
    (h : m ≤ w.chip.txFsr k ∧ w.chip.txFsr k ≤ w.chip.txSize k) : m ≤ w.tick.chip.txFsr k := by
  unfold World.tick
  cases w.sched with
  | nil => exact h.1
  | cons es rest =>
    simp only
    revert h hlt
    generalize w.chip = c
    induction es generalizing c with
    | nil => exact fun _ h => h.1
    | cons e es ih =>
      intro hlt h
      rw [List.foldl_cons]
      have hs : (c.envStep e).txSize k = c.txSize k := by
        unfold Chip.txSize; rw [envStep_frame _ _ _ _ (by omega) (by omega)]
      have hfsr : m ≤ (c.envStep e).txFsr k ∧ (c.envStep e).txFsr k ≤ c.txSize k := by
        cases e with
        | arrive j bs =>
          simp only [Chip.envStep]
          split
          · unfold Chip.txFsr
            simp only [Chip.setReg]
            rw [Mem.ringWrite_word _ _ _ _ _ _ _ (by omega), Mem.word_setWord_ne _ _ _ _ _ _ (by omega),
              Mem.word_setWord_ne _ _ _ _ _ _ (by omega)]
            exact h
          · exact h
        | status j s =>
          show m ≤ (c.mem.store (4 * j + 1) 3 s).word (4 * k + 1) 0x20 ∧ (c.mem.store (4 * j + 1) 3 s).word (4 * k + 1) 0x20 ≤ _
          unfold Mem.word Mem.store
          rw [if_neg (by omega), if_neg (by omega)]; exact h
        | free j n =>
          by_cases hj : j = k
          · subst hj
            have e : (c.envStep (.free j n)).txFsr j = min (c.txSize j) (c.txFsr j + n) % 65536 := by
              show (c.setReg j 0x20 _).mem.word _ _ = _
              rw [setReg_word]
            rw [e]; omega
          · have e : (c.envStep (.free j n)).txFsr k = c.txFsr k := by
              show (c.mem.setWord (4 * j + 1) 0x20 _).word (4 * k + 1) 0x20 = _
              rw [Mem.word_setWord_ne _ _ _ _ _ _ (by omega)]; rfl
            rw [e]; exact h
        | raise j s =>
          show m ≤ (c.mem.store (4 * j + 1) 2 _).word (4 * k + 1) 0x20 ∧ (c.mem.store (4 * j + 1) 2 _).word (4 * k + 1) 0x20 ≤ _
          unfold Mem.word Mem.store
          rw [if_neg (by omega), if_neg (by omega)]; exact h
      exact ih (c.envStep e) (by rw [hs]; exact hlt) (by rw [hs]; exact hfsr)

theorem tick_txFsr_ge {w : World} {k : Nat} (h : TxState w.chip k) : w.chip.txFsr k ≤ w.tick.chip.txFsr k :=
  tick_txFsr_ge' w k _ h.size_lt ⟨Nat.le_refl _, h.fsr_le⟩

/-- Writing through a writer on socket `sn` and sending: the program runs as on an image of the free
space; if it succeeds one transmission with what it wrote is made, otherwise none. -/
theorem writer_run {α : Type} (sn : Sn) (w : World) (h : TxState w.chip sn.idx) (prog : WProg α) :
    ∃ buf : Bytes, buf.length ≤ w.chip.txSize sn.idx ∧ w.chip.txFsr sn.idx ≤ buf.length ∧
      (∀ e c, prog.run imageOps ⟨buf, 0⟩ = (.error e, c) → ∃ w', (do
          let r ← socketWriter worldBus sn
          onWriter worldBus r prog : M World _) w = (.error e, w') ∧ w'.chip.sent = w.chip.sent) ∧
      (∀ a c, prog.run imageOps ⟨buf, 0⟩ = (.ok a, c) → ∃ r w', (do
          let r ← socketWriter worldBus sn
          onWriter worldBus r prog : M World _) w = (.ok (a, r), w') ∧ w'.chip.sent = w.chip.sent ∧
        ∃ w'', writerSend worldBus r w' = (.ok (), w'') ∧
          w''.chip.sent = w.chip.sent ++ [⟨sn.idx, w.chip.destIp sn.idx, w.chip.destPort sn.idx, c.buf.take c.pos⟩] ∧
          TxState w''.chip sn.idx) := by
  obtain ⟨r, img, e, hsn, hpos, hlen, rel⟩ := run_socketWriter h
  obtain ⟨img', h1, h2, h3⟩ := Thm.C11_writer_is_image sn w w.tick r h e
  have hbuf : img' = ⟨img'.buf, 0⟩ := by cases img'; cases h1; rfl
  refine ⟨img'.buf, ?_, ?_, ?_, ?_⟩
  · rw [h2]; have := h.tick.fsr_le; rw [tick_txSize] at this; exact this
  · rw [h2]
    exact tick_txFsr_ge h
  · intro e' c hc
    rw [← hbuf] at hc
    obtain ⟨g1, _, _, _, g5, _⟩ := h3 prog
    rw [hc] at g1
    rw [M.bind_ok e]
    unfold onWriter
    rcases hr : prog.run (writerOps worldBus) (w.tick, r) with ⟨x, w', r'⟩
    rw [hr] at g1 g5
    change x = _ at g1
    subst g1
    exact ⟨w', rfl, g5.trans (tick_sent w)⟩
  · intro a c hc
    rw [← hbuf] at hc
    obtain ⟨g1, _, _, _, g5, w2, g6, g7, g8⟩ := h3 prog
    rw [hc] at g1 g7
    rw [M.bind_ok e]
    unfold onWriter
    rcases hr : prog.run (writerOps worldBus) (w.tick, r) with ⟨x, w', r'⟩
    rw [hr] at g1 g5 g6
    change x = _ at g1
    subst g1
    refine ⟨r', w', rfl, g5.trans (tick_sent w), w2, g6, ?_, g8⟩
    rw [g7]
    change w.tick.chip.sent ++ [⟨_, w.tick.chip.destIp sn.idx, w.tick.chip.destPort sn.idx, _⟩] = _
    rw [tick_sent, tick_destIp, tick_destPort]

end Verif

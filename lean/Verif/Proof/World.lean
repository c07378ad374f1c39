import Verif.Spec.World
import Verif.Proof.LL
import Verif.Proof.Seek
namespace Verif
open Hl Spec

/-! ## rings -/

theorem mod_inj {x y s : Nat} (h : x % s = y % s) (h1 : x ≤ y) (h2 : y < x + s) : x = y := by
  have := Nat.sub_mod_eq_zero_of_mod_eq h.symm
  have h3 : (y - x) % s = y - x := Nat.mod_eq_of_lt (by omega)
  omega

namespace Spec.Mem

theorem ringWrite_out (m : Mem) (b size pos : Nat) (xs : Bytes) (b' a : Nat)
    (h : b' ≠ b ∨ ∀ i < xs.length, a ≠ (pos + i) % size) :
    m.ringWrite b size pos xs b' a = m b' a := by
  induction xs generalizing m pos with
  | nil => rfl
  | cons x xs ih =>
    rw [ringWrite, ih]
    · unfold store
      rw [if_neg]
      rintro ⟨h1, h2⟩
      rcases h with h | h
      · exact h h1
      · exact h 0 (by simp) (by simpa using h2)
    · rcases h with h | h
      · exact .inl h
      · right; intro i hi
        have := h (i + 1) (by simpa using hi)
        rwa [Nat.add_assoc, Nat.add_comm 1 i]

theorem ringWrite_in (m : Mem) (b size pos : Nat) (xs : Bytes) (hl : xs.length ≤ size)
    (i : Nat) (hi : i < xs.length) :
    m.ringWrite b size pos xs b ((pos + i) % size) = xs[i] := by
  induction xs generalizing m pos i with
  | nil => simp at hi
  | cons x xs ih =>
    simp only [List.length_cons] at hl hi
    rw [ringWrite]
    cases i with
    | zero =>
      rw [ringWrite_out]
      · simp [store]
      · right; intro j hj hc
        have := mod_inj hc (by omega) (by omega)
        omega
    | succ i =>
      have := ih (m.store b (pos % size) x) (pos + 1) (by omega) i (by omega)
      rw [show pos + 1 + i = pos + (i + 1) by omega] at this
      rw [this]; rfl

theorem ringWrite_mod (m : Mem) (b size pos : Nat) (xs : Bytes) (n : Nat) (h : n % size = 0) :
    m.ringWrite b size (pos % n) xs = m.ringWrite b size pos xs := by
  have key : ∀ x, x % n % size = x % size := fun x => Nat.mod_mod_of_dvd x (Nat.dvd_of_mod_eq_zero h)
  have gen : ∀ (xs : Bytes) (m : Mem) (p q : Nat), p % size = q % size →
      m.ringWrite b size p xs = m.ringWrite b size q xs := by
    intro xs
    induction xs with
    | nil => intros; rfl
    | cons x xs ih =>
      intro m p q hpq
      rw [ringWrite, ringWrite, hpq]
      apply ih
      rw [Nat.add_mod, hpq, ← Nat.add_mod]
  exact gen xs m _ _ (key pos)

theorem ringRead_mod (m : Mem) (b size pos k n : Nat) (h : n % size = 0) :
    m.ringRead b size (pos % n) k = m.ringRead b size pos k := by
  unfold ringRead
  apply List.map_congr_left
  intro i _
  congr 1
  rw [Nat.add_mod, Nat.mod_mod_of_dvd _ (Nat.dvd_of_mod_eq_zero h), ← Nat.add_mod]

theorem ringRead_length (m : Mem) (b size pos n : Nat) : (m.ringRead b size pos n).length = n := by
  simp [ringRead]

/-! ## words -/

theorem word_lt (m : Mem) (b a : Nat) : m.word b a < 65536 := by
  have := (m b a).toNat_lt; have := (m b (a + 1)).toNat_lt; unfold word; omega

theorem word_setWord (m : Mem) (b a v : Nat) : (m.setWord b a v).word b a = v % 65536 := by
  simp [word, setWord, store, UInt8.toNat_ofNat']; omega

theorem word_setWord_ne (m : Mem) (b a v b' a' : Nat) (h : b' ≠ b ∨ (a' ≠ a ∧ a' ≠ a + 1 ∧ a' + 1 ≠ a)) :
    (m.setWord b a v).word b' a' = m.word b' a' := by
  unfold word setWord store
  congr 2
  · congr 1
    rw [if_neg (by omega), if_neg (by omega)]
  · rw [if_neg (by omega), if_neg (by omega)]

theorem ringWrite_word (m : Mem) (b size pos : Nat) (xs : Bytes) (b' a : Nat) (h : b' ≠ b) :
    (m.ringWrite b size pos xs).word b' a = m.word b' a := by
  unfold word
  rw [ringWrite_out _ _ _ _ _ _ _ (.inl h), ringWrite_out _ _ _ _ _ _ _ (.inl h)]

theorem setWord_ne (m : Mem) (b a v b' a' : Nat) (h : b' ≠ b ∨ (a' ≠ a ∧ a' ≠ a + 1)) :
    m.setWord b a v b' a' = m b' a' := by
  unfold setWord store
  rw [if_neg (by omega), if_neg (by omega)]

end Spec.Mem

theorem be16_eq (a b : UInt8) : be16 a b = UInt16.ofNat (a.toNat * 256 + b.toNat) := by
  apply u16_ext
  rw [be16_toNat, UInt16.toNat_ofNat']
  have := a.toNat_lt; have := b.toNat_lt; omega

/-- Index of a socket. -/
abbrev Sn.idx (s : Sn) : Nat := s.toU8.toNat
theorem Sn.block_idx (s : Sn) : s.block.toNat = 4 * s.idx + 1 := s.block_toNat
theorem Sn.txBlock_idx (s : Sn) : s.txBlock.toNat = 4 * s.idx + 2 := s.txBlock_toNat
theorem Sn.rxBlock_idx (s : Sn) : s.rxBlock.toNat = 4 * s.idx + 3 := s.rxBlock_toNat
theorem hi_ofNat (v : UInt16) : (v >>> 8).toUInt8 = UInt8.ofNat (v.toNat / 256) := by
  apply UInt8.toNat_inj.mp; rw [hi_toNat, UInt8.toNat_ofNat']; have := v.toNat_lt; omega
theorem lo_ofNat (v : UInt16) : v.toUInt8 = UInt8.ofNat v.toNat := by
  apply UInt8.toNat_inj.mp; rw [lo_toNat, UInt8.toNat_ofNat']

/-! ## bus accesses -/

theorem worldBus_read (a : UInt16) (b : UInt8) (n : Nat) (w : World) :
    worldBus.read a b n w = (.ok (Vector.ofFn fun i : Fin n =>
      w.tick.chip.readByte b.toNat (a.toNat + i.val)), w.tick) := rfl

theorem worldBus_write (a : UInt16) (b : UInt8) (bs : Bytes) (w : World) :
    worldBus.write a b bs w
      = (.ok (), { w.tick with chip := w.tick.chip.writeBytes b.toNat a.toNat bs }) := rfl

theorem readByte_sock (c : Chip) (k a : Nat) (h : a < 65536) :
    c.readByte (4 * k + 1) a = c.mem (4 * k + 1) a := by
  unfold Chip.readByte Chip.phys
  rw [if_neg (by omega), if_neg (by omega), Nat.mod_eq_of_lt h]

theorem readByte_rx (c : Chip) (k a : Nat) (h : 65536 % c.rxSize k = 0) :
    c.readByte (4 * k + 3) a = c.mem (4 * k + 3) (a % c.rxSize k) := by
  unfold Chip.readByte Chip.phys
  rw [if_neg (by omega), if_pos (by omega), show (4 * k + 3) / 4 = k by omega,
    Nat.mod_mod_of_dvd _ (Nat.dvd_of_mod_eq_zero h)]

section
variable (sn : Sn) (w : World)

local macro "rd_tac" f:ident : tactic => `(tactic|
  (unfold $f
   rw [M.bind_ok (worldBus_read _ _ _ _)]
   simp (disch := decide) only [M.pure_run, Sn.block_idx, Vector.getElem_ofFn, readByte_sock, be16_eq]
   rfl))

theorem run_snRxRsr : worldBus.snRxRsr sn w = (.ok (UInt16.ofNat (w.tick.chip.rxRsr sn.idx)), w.tick) := by
  rd_tac Bus.snRxRsr
theorem run_snRxRd : worldBus.snRxRd sn w = (.ok (UInt16.ofNat (w.tick.chip.rxRd sn.idx)), w.tick) := by
  rd_tac Bus.snRxRd
theorem run_snTxFsr : worldBus.snTxFsr sn w = (.ok (UInt16.ofNat (w.tick.chip.txFsr sn.idx)), w.tick) := by
  rd_tac Bus.snTxFsr
theorem run_snTxWr : worldBus.snTxWr sn w = (.ok (UInt16.ofNat (w.tick.chip.txWr sn.idx)), w.tick) := by
  rd_tac Bus.snTxWr
theorem run_snPort : worldBus.snPort sn w = (.ok (UInt16.ofNat (w.tick.chip.srcPort sn.idx)), w.tick) := by
  rd_tac Bus.snPort
theorem run_snTxPtrs : worldBus.snTxPtrs sn w = (.ok ⟨UInt16.ofNat (w.tick.chip.txFsr sn.idx),
    UInt16.ofNat (w.tick.chip.txWr sn.idx)⟩, w.tick) := by
  rd_tac Bus.snTxPtrs
theorem run_snSr : worldBus.snSr sn w
    = (.ok (SocketStatus.tryFrom (w.tick.chip.status sn.idx)), w.tick) := by
  rd_tac Bus.snSr

end

theorem vector_ofFn_toList {n : Nat} (f : Nat → UInt8) :
    (Vector.ofFn fun i : Fin n => f i.val).toList = (List.range n).map f := by
  apply List.ext_getElem
  · simp
  · intro i h1 h2; simp

theorem run_snRxBuf (sn : Sn) (w : World) (ptr : UInt16) (n : Nat)
    (h : 65536 % w.tick.chip.rxSize sn.idx = 0) :
    worldBus.snRxBuf sn ptr n w
      = (.ok (w.tick.chip.mem.ringRead (4 * sn.idx + 3) (w.tick.chip.rxSize sn.idx) ptr.toNat n), w.tick) := by
  unfold Bus.snRxBuf
  rw [M.bind_ok (worldBus_read _ _ _ _)]
  simp only [M.pure_run, Sn.rxBlock_idx]
  rw [vector_ofFn_toList (fun i => w.tick.chip.readByte (4 * sn.idx + 3) (ptr.toNat + i))]
  simp only [Mem.ringRead, Prod.mk.injEq, Except.ok.injEq, and_true]
  apply List.map_congr_left
  intro i _
  exact readByte_rx _ _ _ h

/-! ### writes -/

theorem writeByte_plain (c : Chip) (k a : Nat) (x : UInt8) (h1 : a ≠ 1) (h2 : a ≠ 2)
    (h3 : Chip.readOnly a = false) :
    c.writeByte (4 * k + 1) a x = { c with mem := c.mem.store (4 * k + 1) a x } := by
  unfold Chip.writeByte
  rw [if_pos (by omega), if_neg h1, if_neg h2, if_neg (by simp [h3])]

theorem writeBytes_word (c : Chip) (k a : Nat) (v : UInt16) (ha : 2 < a) (ha' : a < 1000)
    (h3 : Chip.readOnly a = false) (h4 : Chip.readOnly (a + 1) = false) :
    c.writeBytes (4 * k + 1) a (toBe16 v) = c.setReg k a v.toNat := by
  simp only [toBe16, Chip.writeBytes]
  rw [Nat.mod_eq_of_lt (by omega), Nat.mod_eq_of_lt (by omega),
    writeByte_plain _ _ _ _ (by omega) (by omega) h3, writeByte_plain _ _ _ _ (by omega) (by omega) h4]
  rw [hi_ofNat, lo_ofNat]
  rfl

theorem run_setSnRxRd (sn : Sn) (v : UInt16) (w : World) :
    worldBus.setSnRxRd sn v w = (.ok (), { w.tick with chip := w.tick.chip.setReg sn.idx 0x28 v.toNat }) := by
  unfold Bus.setSnRxRd
  rw [worldBus_write, Sn.block_idx, show SnReg.RX_RD0.addr.toNat = 0x28 from rfl,
    writeBytes_word _ _ _ _ (by omega) (by omega) rfl rfl]

theorem run_setSnTxWr (sn : Sn) (v : UInt16) (w : World) :
    worldBus.setSnTxWr sn v w = (.ok (), { w.tick with chip := w.tick.chip.setReg sn.idx 0x24 v.toNat }) := by
  unfold Bus.setSnTxWr
  rw [worldBus_write, Sn.block_idx, show SnReg.TX_WR0.addr.toNat = 0x24 from rfl,
    writeBytes_word _ _ _ _ (by omega) (by omega) rfl rfl]

theorem run_setSnPort (sn : Sn) (v : UInt16) (w : World) :
    worldBus.setSnPort sn v w = (.ok (), { w.tick with chip := w.tick.chip.setReg sn.idx 0x04 v.toNat }) := by
  unfold Bus.setSnPort
  rw [worldBus_write, Sn.block_idx, show SnReg.PORT0.addr.toNat = 0x04 from rfl,
    writeBytes_word _ _ _ _ (by omega) (by omega) rfl rfl]

theorem run_setSnCr (sn : Sn) (v : SocketCommand) (w : World) :
    worldBus.setSnCr sn v w = (.ok (), { w.tick with chip := w.tick.chip.command sn.idx v.code }) := by
  unfold Bus.setSnCr
  rw [worldBus_write, Sn.block_idx, show SnReg.CR.addr.toNat = 0x01 from rfl]
  simp only [Chip.writeBytes, Chip.writeByte]
  rw [if_pos (by omega), if_pos (by decide), show (4 * sn.idx + 1) / 4 = sn.idx by omega]

theorem run_setSnMr (sn : Sn) (v : SocketMode) (w : World) :
    worldBus.setSnMr sn v w
      = (.ok (), { w.tick with chip :=
          { w.tick.chip with mem := w.tick.chip.mem.store (4 * sn.idx + 1) 0 v.raw } }) := by
  unfold Bus.setSnMr
  rw [worldBus_write, Sn.block_idx, show SnReg.MR.addr.toNat = 0x00 from rfl]
  simp only [Chip.writeBytes]
  rw [writeByte_plain _ _ _ _ (by omega) (by omega) rfl]

/-- Storing a destination address. -/
def setDest (c : Chip) (k : Nat) (a : SockAddr) : Chip :=
  { c with mem := ((((c.mem.store (4 * k + 1) 0x0C a.ip.a).store (4 * k + 1) 0x0D a.ip.b).store (4 * k + 1)
      0x0E a.ip.c).store (4 * k + 1) 0x0F a.ip.d).setWord (4 * k + 1) 0x10 a.port.toNat }

theorem run_setSnDest (sn : Sn) (v : SockAddr) (w : World) :
    worldBus.setSnDest sn v w = (.ok (), { w.tick with chip := setDest w.tick.chip sn.idx v }) := by
  unfold Bus.setSnDest
  rw [worldBus_write, Sn.block_idx, show SnReg.DIPR0.addr.toNat = 0x0C from rfl]
  simp only [Chip.writeBytes]
  rw [writeByte_plain _ _ _ _ (by omega) (by omega) rfl, writeByte_plain _ _ _ _ (by omega) (by omega) rfl,
    writeByte_plain _ _ _ _ (by omega) (by omega) rfl, writeByte_plain _ _ _ _ (by omega) (by omega) rfl,
    writeByte_plain _ _ _ _ (by omega) (by omega) rfl, writeByte_plain _ _ _ _ (by omega) (by omega) rfl]
  rw [hi_ofNat, lo_ofNat]
  rfl

theorem writeBytes_tx (c : Chip) (k a : Nat) (xs : Bytes) (h : 65536 % c.txSize k = 0) :
    c.writeBytes (4 * k + 2) a xs
      = { c with mem := c.mem.ringWrite (4 * k + 2) (c.txSize k) a xs } := by
  induction xs generalizing c a with
  | nil => rfl
  | cons x xs ih =>
    rw [Chip.writeBytes]
    have e : c.writeByte (4 * k + 2) (a % 65536) x
        = { c with mem := c.mem.store (4 * k + 2) (a % c.txSize k) x } := by
      unfold Chip.writeByte Chip.phys
      rw [if_neg (by omega), if_pos (by omega), show (4 * k + 2) / 4 = k by omega,
        Nat.mod_mod_of_dvd _ (Nat.dvd_of_mod_eq_zero h)]
    have e2 : ({ c with mem := c.mem.store (4 * k + 2) (a % c.txSize k) x } : Chip).txSize k = c.txSize k := by
      simp [Chip.txSize, Mem.store]
    rw [e, ih _ _ (by rw [e2]; exact h), e2]
    rfl

theorem run_setSnTxBuf (sn : Sn) (ptr : UInt16) (bs : Bytes) (w : World)
    (h : 65536 % w.tick.chip.txSize sn.idx = 0) :
    worldBus.setSnTxBuf sn ptr bs w = (.ok (), { w.tick with chip := { w.tick.chip with
      mem := w.tick.chip.mem.ringWrite (4 * sn.idx + 2) (w.tick.chip.txSize sn.idx) ptr.toNat bs } }) := by
  unfold Bus.setSnTxBuf
  rw [worldBus_write, Sn.txBlock_idx, writeBytes_tx _ _ _ _ h]

end Verif

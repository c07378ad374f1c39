import Verif.Spec.SpiSlave
import Verif.Proof.Basic
namespace Verif.Spi
open Verif.Spec

/-- Third header byte, all four length modes. -/
theorem ctrl_dec (block : UInt8) (hb : block < 32) (k : UInt8) (hk : k < 4) (m : AccessMode) :
    let c := (block <<< 3) ||| (m.code <<< 2) ||| k
    c.toNat / 8 = block.toNat ∧ (c.toNat / 4 % 2 == 1) = (m == .write) ∧ c.toNat % 4 = k.toNat := by
  revert block k
  have key : ∀ b : Fin 32, ∀ k : Fin 4, ∀ m : Bool,
      let md : AccessMode := if m then .write else .read
      let c := ((UInt8.ofNat b.val) <<< 3) ||| (md.code <<< 2) ||| (UInt8.ofNat k.val)
      c.toNat / 8 = b.val ∧ (c.toNat / 4 % 2 == 1) = (md == .write) ∧ c.toNat % 4 = k.val := by
    decide +kernel
  intro block hb k hk
  have h := key ⟨block.toNat, hb⟩ ⟨k.toNat, hk⟩ (m == .write)
  simp only [UInt8.ofNat_toNat] at h
  cases m <;> exact h

theorem vdm_ctrl (block : UInt8) (m : AccessMode) :
    (block <<< 3) ||| (m.code <<< 2) = (block <<< 3) ||| (m.code <<< 2) ||| 0 := by simp

theorem decode_hdr (addr : UInt16) (block : UInt8) (hb : block < 32) (k : UInt8) (hk : k < 4)
    (m : AccessMode) :
    decodeHeader (addr >>> 8).toUInt8 addr.toUInt8 ((block <<< 3) ||| (m.code <<< 2) ||| k)
      = { addr := addr.toNat, block := block.toNat, write := m == .write, mode := k.toNat } := by
  obtain ⟨h1, h2, h3⟩ := ctrl_dec block hb k hk m
  unfold decodeHeader
  rw [h1, h2, h3, hi_toNat, lo_toNat]
  congr 1; omega

/-! ## slave -/

/-- Sending a header to an idle slave. -/
theorem send_hdr (s : Slave) (hs : s.phase = .idle) (addr : UInt16) (block : UInt8) (hb : block < 32)
    (k : UInt8) (hk : k < 4) (m : AccessMode) (rest : Bytes) :
    s.send ([(addr >>> 8).toUInt8, addr.toUInt8, (block <<< 3) ||| (m.code <<< 2) ||| k] ++ rest)
      = ({ s with phase := .data (m == .write) block.toNat addr.toNat (frameLen k.toNat) } : Slave).send rest := by
  have h := decode_hdr addr block hb k hk m
  simp only [List.cons_append, List.nil_append, Slave.send, Slave.xfer, hs, h]

theorem recv_data_some (m : Mem) (b a : Nat) (ha : a < 65536) (k : Nat) (hk : 0 < k) :
    ({ mem := m, phase := .data false b a (some k) } : Slave).recv k
      = (m.read b a k, { mem := m, phase := .idle }) := by
  induction k generalizing a with
  | zero => omega
  | succ k ih =>
    rcases Nat.eq_zero_or_pos k with rfl | hk'
    · simp [Slave.recv, Slave.xfer, nextPhase, Mem.read, Nat.mod_eq_of_lt ha, List.range_succ]
    · simp only [Slave.recv, Slave.xfer, nextPhase]
      rw [if_neg (by omega)]
      simp only [Nat.add_sub_cancel]
      rw [ih _ (Nat.mod_lt _ (by omega)) hk']
      simp only [Mem.read, List.range_succ_eq_map, List.map_cons, List.map_map, Nat.add_zero,
        Nat.mod_eq_of_lt ha, Prod.mk.injEq, List.cons.injEq, true_and, and_true]
      apply List.map_congr_left
      intro i _
      simp only [Function.comp]
      congr 1; omega

theorem recv_data_none (m : Mem) (b a : Nat) (ha : a < 65536) (k : Nat) :
    ({ mem := m, phase := .data false b a none } : Slave).recv k
      = (m.read b a k, { mem := m, phase := .data false b ((a + k) % 65536) none }) := by
  induction k generalizing a with
  | zero => simp [Slave.recv, Mem.read, Nat.mod_eq_of_lt ha]
  | succ k ih =>
    simp only [Slave.recv, Slave.xfer, nextPhase]
    rw [ih _ (Nat.mod_lt _ (by omega))]
    simp only [Mem.read, List.range_succ_eq_map, List.map_cons, List.map_map, Nat.add_zero,
      Nat.mod_eq_of_lt ha, Prod.mk.injEq, List.cons.injEq, true_and, Slave.mk.injEq]
    constructor
    · apply List.map_congr_left
      intro i _
      simp only [Function.comp]
      congr 1; omega
    · congr 1; omega

theorem Mem.write_mod (m : Mem) (b a : Nat) (xs : Bytes) :
    m.write b (a % 65536) xs = m.write b a xs := by
  induction xs generalizing m a with
  | nil => rfl
  | cons x xs ih =>
    simp only [Mem.write, Nat.mod_mod]
    rw [← ih _ (a % 65536 + 1), ← ih _ (a + 1)]
    congr 1; omega

theorem send_data_some (m : Mem) (b a : Nat) (ha : a < 65536) (xs : Bytes) (hx : 0 < xs.length) :
    ({ mem := m, phase := .data true b a (some xs.length) } : Slave).send xs
      = { mem := m.write b a xs, phase := .idle } := by
  induction xs generalizing m a with
  | nil => simp at hx
  | cons x xs ih =>
    rcases xs with _ | ⟨y, ys⟩
    · simp [Slave.send, Slave.xfer, nextPhase, Mem.write, Nat.mod_eq_of_lt ha]
    · rw [Slave.send]
      simp only [Slave.xfer, nextPhase, List.length_cons]
      rw [if_neg (by omega)]
      have := ih (m.store b a x) ((a + 1) % 65536) (Nat.mod_lt _ (by omega)) (by simp)
      simp only [List.length_cons] at this
      simp only [Nat.add_sub_cancel]
      rw [this, Mem.write_mod]
      simp only [Mem.write, Nat.mod_eq_of_lt ha]

theorem send_data_none (m : Mem) (b a : Nat) (ha : a < 65536) (xs : Bytes) :
    (({ mem := m, phase := .data true b a none } : Slave).send xs).mem = m.write b a xs := by
  induction xs generalizing m a with
  | nil => simp [Slave.send, Mem.write]
  | cons x xs ih =>
    rw [Slave.send]
    simp only [Slave.xfer, nextPhase]
    rw [ih _ _ (Nat.mod_lt _ (by omega)), Mem.write_mod]
    simp [Mem.write, Nat.mod_eq_of_lt ha]

theorem Mem.read_append (m : Mem) (b a n k : Nat) :
    m.read b a n ++ m.read b (a + n) k = m.read b a (n + k) := by
  simp only [Mem.read, List.range_add, List.map_append, List.map_map]
  congr 1
  apply List.map_congr_left; intro i _; simp [Nat.add_assoc]

theorem Mem.read_mod (m : Mem) (b a n : Nat) : m.read b (a % 65536) n = m.read b a n := by
  simp only [Mem.read]
  apply List.map_congr_left; intro i _
  congr 1; omega

theorem Mem.write_append (m : Mem) (b a : Nat) (xs ys : Bytes) :
    (m.write b a xs).write b (a + xs.length) ys = m.write b a (xs ++ ys) := by
  induction xs generalizing m a with
  | nil => rfl
  | cons x xs ih =>
    simp only [Mem.write, List.cons_append, List.length_cons]
    rw [← ih]; congr 1; omega

/-! ## drivers -/

@[simp] theorem slaveBus_write (bs : Bytes) (s : Slave) :
    slaveBus.write bs s = (.ok (), s.send bs) := rfl
@[simp] theorem slaveBus_read (n : Nat) (s : Slave) :
    slaveBus.read n s = (.ok (s.recv n).1, (s.recv n).2) := rfl
@[simp] theorem slaveDev_write (bs : Bytes) (s : Slave) :
    slaveDev.write bs s = (.ok (), s.send bs) := rfl
@[simp] theorem slaveDev_read (n : Nat) (s : Slave) :
    slaveDev.read n s = (.ok (s.recv n).1, (s.recv n).2) := rfl
@[simp] theorem slaveDev_setLow (s : Slave) :
    slaveDev.setLow s = (.ok (), { s with phase := .idle }) := rfl
@[simp] theorem slaveDev_setHigh (s : Slave) :
    slaveDev.setHigh s = (.ok (), { s with phase := .idle }) := rfl

theorem readChunks_slave (hdr : UInt16 → UInt8 → AccessMode → Bytes) (c : Nat) (k : UInt8)
    (hh : ∀ a b m, hdr a b m = [(a >>> 8).toUInt8, a.toUInt8, (b <<< 3) ||| (m.code <<< 2) ||| k])
    (hk : k < 4) (hc : frameLen k.toNat = some c) (hc0 : 0 < c)
    (block : UInt8) (hb : block < 32) (m : Mem) (n : Nat) (a : UInt16) :
    readChunks slaveBus hdr c block n a { mem := m, phase := .idle }
      = (.ok (m.read block.toNat a.toNat (n * c), a + UInt16.ofNat (n * c)),
          { mem := m, phase := .idle }) := by
  induction n generalizing a with
  | zero => simp [readChunks, Mem.read]
  | succ n ih =>
    have e := send_hdr { mem := m, phase := .idle } rfl a block hb k hk .read []
    rw [List.append_nil, hc, ← hh a block .read] at e
    have e1 : slaveBus.write (hdr a block .read) { mem := m, phase := .idle }
      = (.ok (), { mem := m, phase := .data false block.toNat a.toNat (some c) }) :=
      congrArg (Prod.mk _) e
    have e2 : slaveBus.read c { mem := m, phase := .data false block.toNat a.toNat (some c) }
      = (.ok (m.read block.toNat a.toNat c), { mem := m, phase := .idle }) := by
      rw [slaveBus_read, recv_data_some _ _ _ a.toNat_lt _ hc0]
    rw [readChunks, M.bind_ok e1, M.bind_ok e2, M.bind_ok (ih _)]
    simp only [M.pure_run, Prod.mk.injEq, Except.ok.injEq, and_true]
    constructor
    · rw [Nat.succ_mul, Nat.add_comm (n * c) c, ← Mem.read_append]
      congr 1
      rw [← Mem.read_mod _ _ (a.toNat + c)]
      congr 1
      rw [UInt16.toNat_add, UInt16.toNat_ofNat']
      omega
    · apply UInt16.toNat_inj.mp
      simp only [UInt16.toNat_add, UInt16.toNat_ofNat', Nat.succ_mul]
      omega

theorem writeChunks_slave (hdr : UInt16 → UInt8 → AccessMode → Bytes) (c : Nat) (k : UInt8)
    (hh : ∀ a b m, hdr a b m = [(a >>> 8).toUInt8, a.toUInt8, (b <<< 3) ||| (m.code <<< 2) ||| k])
    (hk : k < 4) (hc : frameLen k.toNat = some c) (hc0 : 0 < c)
    (block : UInt8) (hb : block < 32) (m : Mem) (n : Nat) (a : UInt16) (data : Bytes)
    (hn : n * c ≤ data.length) :
    writeChunks slaveBus hdr c block n a data { mem := m, phase := .idle }
      = (.ok (a + UInt16.ofNat (n * c), data.drop (n * c)),
          { mem := m.write block.toNat a.toNat (data.take (n * c)), phase := .idle }) := by
  induction n generalizing a data m with
  | zero => simp [writeChunks, Mem.write]
  | succ n ih =>
    have hcd : c ≤ data.length := by rw [Nat.succ_mul] at hn; omega
    have hl : (data.take c).length = c := by simp [hcd]
    have e := send_hdr { mem := m, phase := .idle } rfl a block hb k hk .write []
    rw [List.append_nil, hc, ← hh a block .write] at e
    have e1 : slaveBus.write (hdr a block .write) { mem := m, phase := .idle }
      = (.ok (), { mem := m, phase := .data true block.toNat a.toNat (some c) }) :=
      congrArg (Prod.mk _) e
    have e2 := slaveBus_write (data.take c)
      { mem := m, phase := .data true block.toNat a.toNat (some c) }
    have e3 := send_data_some m block.toNat a.toNat a.toNat_lt (data.take c) (by omega)
    rw [hl] at e3
    rw [e3] at e2
    rw [writeChunks, M.bind_ok e1, M.bind_ok e2, ih _ _ (data.drop c)
      (by rw [List.length_drop]; rw [Nat.succ_mul] at hn; omega)]
    simp only [Prod.mk.injEq, Except.ok.injEq, Slave.mk.injEq, and_true]
    refine ⟨⟨?_, ?_⟩, ?_⟩
    · apply UInt16.toNat_inj.mp
      simp only [UInt16.toNat_add, UInt16.toNat_ofNat', Nat.succ_mul]
      omega
    · rw [List.drop_drop, Nat.succ_mul, Nat.add_comm]
    · rw [Nat.succ_mul, Nat.add_comm (n * c) c, List.take_add, ← Mem.write_append, hl]
      rw [← Mem.write_mod _ _ (a.toNat + c)]
      congr 1
      rw [UInt16.toNat_add, UInt16.toNat_ofNat']
      omega

theorem fdmRead_slave (block : UInt8) (hb : block < 32) (m : Mem) (a : UInt16) (n : Nat) :
    fdmRead slaveBus a block n { mem := m, phase := .idle }
      = (.ok (m.read block.toNat a.toNat n), { mem := m, phase := .idle }) := by
  unfold fdmRead
  rw [M.bind_ok (readChunks_slave fdmHeader4b 4 3 (fun _ _ _ => rfl) (by decide) rfl (by omega) block hb m _ _)]
  simp only
  rw [M.bind_ok (readChunks_slave fdmHeader2b 2 2 (fun _ _ _ => rfl) (by decide) rfl (by omega) block hb m _ _)]
  simp only
  rw [M.bind_ok (readChunks_slave fdmHeader1b 1 1 (fun _ _ _ => rfl) (by decide) rfl (by omega) block hb m _ _)]
  simp only [M.pure_run, Prod.mk.injEq, Except.ok.injEq, and_true]
  rw [← Mem.read_mod _ _ (a + _).toNat, ← Mem.read_mod _ _ (a + _ + _).toNat]
  simp only [UInt16.toNat_add, UInt16.toNat_ofNat']
  rw [show (((a.toNat + n / 4 * 4 % 2 ^ 16) % 2 ^ 16) % 65536) = (a.toNat + n / 4 * 4) % 65536 by omega,
    show ((((a.toNat + n / 4 * 4 % 2 ^ 16) % 2 ^ 16 + n % 4 / 2 * 2 % 2 ^ 16) % 2 ^ 16) % 65536)
      = (a.toNat + (n / 4 * 4 + n % 4 / 2 * 2)) % 65536 by omega,
    Mem.read_mod, Mem.read_mod, Mem.read_append, Mem.read_append]
  congr 1; omega

theorem fdmWrite_slave (block : UInt8) (hb : block < 32) (m : Mem) (a : UInt16) (data : Bytes) :
    fdmWrite slaveBus a block data { mem := m, phase := .idle }
      = (.ok (), { mem := m.write block.toNat a.toNat data, phase := .idle }) := by
  unfold fdmWrite
  rw [M.bind_ok (writeChunks_slave fdmHeader4b 4 3 (fun _ _ _ => rfl) (by decide) rfl (by omega) block hb m _ _ _
    (by omega))]
  simp only
  rw [M.bind_ok (writeChunks_slave fdmHeader2b 2 2 (fun _ _ _ => rfl) (by decide) rfl (by omega) block hb _ _ _ _
    (by omega))]
  simp only
  rw [M.bind_ok (writeChunks_slave fdmHeader1b 1 1 (fun _ _ _ => rfl) (by decide) rfl (by omega) block hb _ _ _ _
    (by omega))]
  simp only [M.pure_run, Prod.mk.injEq, Slave.mk.injEq, and_true, true_and, Nat.div_one, Nat.mul_one,
    List.take_length]
  generalize hd1 : data.drop (data.length / 4 * 4) = d1
  have hl1 : d1.length = data.length - data.length / 4 * 4 := by rw [← hd1, List.length_drop]
  generalize hd2 : d1.drop (d1.length / 2 * 2) = d2
  rw [← Mem.write_mod _ _ (a + _).toNat, ← Mem.write_mod _ _ (a + _ + _).toNat]
  simp only [UInt16.toNat_add, UInt16.toNat_ofNat']
  have t1 : (data.take (data.length / 4 * 4)).length = data.length / 4 * 4 := by
    rw [List.length_take]; omega
  have t2 : (d1.take (d1.length / 2 * 2)).length = d1.length / 2 * 2 := by
    rw [List.length_take]; omega
  rw [show (((a.toNat + data.length / 4 * 4 % 2 ^ 16) % 2 ^ 16) % 65536)
      = (a.toNat + (data.take (data.length / 4 * 4)).length) % 65536 by rw [t1]; omega,
    show ((((a.toNat + data.length / 4 * 4 % 2 ^ 16) % 2 ^ 16 + d1.length / 2 * 2 % 2 ^ 16) % 2 ^ 16) % 65536)
      = (a.toNat + (data.take (data.length / 4 * 4) ++ d1.take (d1.length / 2 * 2)).length) % 65536 by
        rw [List.length_append, t1, t2]; omega,
    Mem.write_mod, Mem.write_mod, Mem.write_append, Mem.write_append, List.append_assoc, ← hd2,
    List.take_append_drop, ← hd1, List.take_append_drop]

theorem vdmRead_slave (s : Slave) (block : UInt8) (hb : block < 32) (a : UInt16) (n : Nat) :
    vdmRead slaveDev a block n s
      = (.ok (s.mem.read block.toNat a.toNat n), { s with phase := .idle }) := by
  have e := send_hdr { s with phase := .idle } rfl a block hb 0 (by decide) .read []
  rw [List.append_nil, ← vdm_ctrl] at e
  have e1 : slaveDev.write (vdmHeader a block .read) { s with phase := .idle }
      = (.ok (), { mem := s.mem, phase := .data false block.toNat a.toNat none }) :=
    congrArg (Prod.mk _) e
  have e2 : slaveDev.read n { mem := s.mem, phase := .data false block.toNat a.toNat none }
      = (.ok (s.mem.read block.toNat a.toNat n),
        { mem := s.mem, phase := .data false block.toNat ((a.toNat + n) % 65536) none }) := by
    rw [slaveDev_read, recv_data_none _ _ _ a.toNat_lt]
  unfold vdmRead withChipEnable
  rw [M.bind_ok (slaveDev_setLow s)]
  rw [M.bind_ok (M.attempt_run _ _), M.bind_ok e1, e2, M.bind_ok (slaveDev_setHigh _),
    M.bind_ok (slaveDev_setHigh _), M.ofExcept_run]

theorem vdmWrite_slave (s : Slave) (block : UInt8) (hb : block < 32) (a : UInt16) (data : Bytes) :
    vdmWrite slaveDev a block data s
      = (.ok (), { mem := s.mem.write block.toNat a.toNat data, phase := .idle }) := by
  have e := send_hdr { s with phase := .idle } rfl a block hb 0 (by decide) .write []
  rw [List.append_nil, ← vdm_ctrl] at e
  have e1 : slaveDev.write (vdmHeader a block .write) { s with phase := .idle }
      = (.ok (), { mem := s.mem, phase := .data true block.toNat a.toNat none }) :=
    congrArg (Prod.mk _) e
  have e2 := slaveDev_write data { mem := s.mem, phase := .data true block.toNat a.toNat none }
  unfold vdmWrite withChipEnable
  rw [M.bind_ok (slaveDev_setLow s)]
  rw [M.bind_ok (M.attempt_run _ _), M.bind_ok e1, e2, M.bind_ok (slaveDev_setHigh _),
    M.bind_ok (slaveDev_setHigh _), M.ofExcept_run]
  simp only [send_data_none _ _ _ a.toNat_lt]

end Verif.Spi

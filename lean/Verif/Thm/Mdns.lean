import Verif.Spec.Mdns
import Verif.Thm.DnsQuery
import Verif.Proof.OpenRegs
import Verif.Proof.ClosedProg
import Verif.Proof.TxOnly
/-!
# C120: the socket of a multicast DNS query
-/
namespace Verif.Thm
open Verif Hl Dns
open _root_.Verif.Spec (World worldBus Chip Mem EnvStep)
open _root_.Verif.Spec.Mdns (watchBus HasGroup MulticastDns)

/-- Bytes stored into configuration registers. -/
theorem writeBytes_config (k : Nat) (bs : Bytes) : ∀ (c : Chip) (a x : Nat), 4 ≤ a → a + bs.length ≤ 0x20 →
    (c.writeBytes (4 * k + 1) a bs).mem (4 * k + 1) x =
      if a ≤ x ∧ x < a + bs.length then bs.getD (x - a) 0 else c.mem (4 * k + 1) x := by
  induction bs with
  | nil => intro c a x _ _; rw [if_neg (by simp)]; rfl
  | cons y bs ih =>
    intro c a x h1 h2
    rw [List.length_cons] at h2 ⊢
    have hs : c.writeByte (4 * k + 1) (a % 65536) y = { c with mem := c.mem.store (4 * k + 1) a y } := by
      rw [Nat.mod_eq_of_lt (by omega)]
      unfold Chip.writeByte Chip.readOnly
      rw [if_pos (by omega), if_neg (by omega), if_neg (by omega), if_neg]
      simp
      omega
    unfold Chip.writeBytes
    rw [hs, ih _ _ _ (by omega) (by omega)]
    dsimp only
    unfold Mem.store
    by_cases hx : x = a
    · subst hx
      rw [if_neg (by omega), if_pos (by simp), if_pos (by omega)]
      simp
    · by_cases hb : a + 1 ≤ x ∧ x < a + 1 + bs.length
      · rw [if_pos hb, if_pos (by omega), show x - a = (x - (a + 1)) + 1 by omega]
        rfl
      · rw [if_neg hb, if_neg (by omega), if_neg (by omega)]

/-- The configuration of socket `k` and the record are left alone. -/
def Same (k : Nat) (s t : World × List Chip) : Prop :=
  (∀ a, ConfigReg a → t.1.chip.mem (4 * k + 1) a = s.1.chip.mem (4 * k + 1) a) ∧ t.2 = s.2

theorem Same.refl (k : Nat) (s : World × List Chip) : Same k s s := ⟨fun _ _ => rfl, rfl⟩
theorem Same.trans {k : Nat} {s t u : World × List Chip} (h1 : Same k s t) (h2 : Same k t u) : Same k s u :=
  ⟨fun a ha => (h2.1 a ha).trans (h1.1 a ha), h2.2.trans h1.2⟩

theorem watch_read (k : Nat) (a : UInt16) (blk : UInt8) (n : Nat) (s : World × List Chip) : Same k s ((watchBus k).read a blk n s).2 :=
  ⟨fun x hx => tick_config s.1 k x hx, rfl⟩

theorem watch_wait (k : Nat) (sn : Sn) (st : SocketStatus) (fuel : Nat) : ∀ s, Same k s (waitStatus (watchBus k) sn st fuel s).2 := by
  induction fuel with
  | zero => intro s; exact Same.refl _ _
  | succ n ih =>
    intro s
    have h := watch_read k SnReg.SR.addr sn.block 1 s
    unfold waitStatus Bus.snSr
    rw [bind_assoc, M.bind_ok (show (watchBus k).read SnReg.SR.addr sn.block 1 s = (.ok _, _) from rfl)]
    rw [pure_bind]
    split
    · exact h
    · exact h.trans (ih _)

/-- A write of another register or buffer than the command register. -/
theorem watch_write (k : Nat) (sn : Sn) (a : UInt16) (blk : UInt8) (bs : Bytes) (s : World × List Chip) (h : blk ≠ sn.block ∨ a ≠ 1 ∨ bs ≠ [1])
    (hk : k = sn.idx) : (watchBus k).write a blk bs s = (.ok (), { s.1.tick with chip := s.1.tick.chip.writeBytes blk.toNat a.toNat bs }, s.2) := by
  have hb := Sn.block_toNat sn
  show (_, _, if _ then _ else _) = _
  rw [if_neg]
  · rfl
  · rintro ⟨h1, h2, h3⟩
    rcases h with h | h | h
    · exact h (UInt8.toNat_inj.mp (by rw [h1, hb, hk]))
    · exact h h2
    · exact h h3

/-- Writing configuration registers. -/
theorem watch_config (sn : Sn) (a : UInt16) (bs : Bytes) (s : World × List Chip) (h1 : 4 ≤ a.toNat) (h2 : a.toNat + bs.length ≤ 0x20) :
    ∃ t, (watchBus sn.idx).write a sn.block bs s = (.ok (), t) ∧ t.2 = s.2 ∧ ∀ x, ConfigReg x → t.1.chip.mem (4 * sn.idx + 1) x =
      if a.toNat ≤ x ∧ x < a.toNat + bs.length then bs.getD (x - a.toNat) 0 else s.1.chip.mem (4 * sn.idx + 1) x := by
  refine ⟨_, watch_write sn.idx sn a sn.block bs s (.inr (.inl ?_)) rfl, rfl, ?_⟩
  · rintro rfl; exact absurd h1 (by decide)
  · intro x hx
    show (s.1.tick.chip.writeBytes sn.block.toNat a.toNat bs).mem _ _ = _
    rw [Sn.block_toNat, writeBytes_config _ _ _ _ _ h1 h2, tick_config _ _ _ hx]

theorem watch_mode (sn : Sn) (v : SocketMode) (s : World × List Chip) :
    ∃ t, (watchBus sn.idx).setSnMr sn v s = (.ok (), t) ∧ t.2 = s.2 ∧ ∀ x, ConfigReg x → t.1.chip.mem (4 * sn.idx + 1) x =
      if x = 0 then v.raw else s.1.chip.mem (4 * sn.idx + 1) x := by
  refine ⟨_, watch_write sn.idx sn _ sn.block _ s (.inr (.inl (by decide))) rfl, rfl, ?_⟩
  intro x hx
  show (s.1.tick.chip.writeBytes sn.block.toNat 0 [v.raw]).mem _ _ = _
  rw [Sn.block_toNat]
  unfold Chip.writeBytes Chip.writeBytes Chip.writeByte
  rw [if_pos (by omega), if_neg (by decide), if_neg (by decide), if_neg (by decide)]
  dsimp only
  unfold Mem.store
  by_cases h0 : x = 0
  · rw [if_pos (by simp [h0]), if_pos h0]
  · rw [if_neg (by simp [h0]), if_neg h0, tick_config _ _ _ hx]

/-- A command other than `OPEN`. -/
theorem watch_cmd (sn : Sn) (v : SocketCommand) (hv : v.code ≠ 1) (s : World × List Chip) :
    ∃ t, (watchBus sn.idx).setSnCr sn v s = (.ok (), t) ∧ Same sn.idx s t := by
  refine ⟨_, watch_write sn.idx sn _ sn.block _ s (.inr (.inr (by simpa using hv))) rfl, ?_, rfl⟩
  intro x hx
  show (s.1.tick.chip.writeBytes sn.block.toNat 1 [v.code]).mem _ _ = _
  rw [Sn.block_toNat]
  unfold Chip.writeBytes Chip.writeBytes Chip.writeByte
  rw [if_pos (by omega), if_pos (by decide), show (4 * sn.idx + 1) / 4 = sn.idx by omega, command_config _ _ _ _ hx, tick_config _ _ _ hx]

/-- `OPEN` is recorded. -/
theorem watch_open (sn : Sn) (s : World × List Chip) :
    ∃ t, (watchBus sn.idx).setSnCr sn .«open» s = (.ok (), t) ∧ t.2 = s.2 ++ [t.1.chip] ∧
      ∀ x, ConfigReg x → t.1.chip.mem (4 * sn.idx + 1) x = s.1.chip.mem (4 * sn.idx + 1) x := by
  refine ⟨((worldBus.write 1 sn.block [1] s.1).2, s.2 ++ [(worldBus.write 1 sn.block [1] s.1).2.chip]), ?_, rfl, ?_⟩
  · show (_, _, if _ then _ else _) = _
    rw [if_pos ⟨Sn.block_toNat sn, rfl, rfl⟩]
    rfl
  · intro x hx
    show (s.1.tick.chip.writeBytes sn.block.toNat 1 [1]).mem _ _ = _
    rw [Sn.block_toNat]
    unfold Chip.writeBytes Chip.writeBytes Chip.writeByte
    rw [if_pos (by omega), if_pos (by decide), show (4 * sn.idx + 1) / 4 = sn.idx by omega, command_config _ _ _ _ hx, tick_config _ _ _ hx]

theorem watch_txBuf (sn : Sn) (p : UInt16) (bs : Bytes) (s : World × List Chip) : Same sn.idx s ((watchBus sn.idx).setSnTxBuf sn p bs s).2 := by
  have hb := Sn.block_toNat sn
  have ht := Sn.txBlock_toNat sn
  unfold Bus.setSnTxBuf
  rw [watch_write sn.idx sn p sn.txBlock bs s (.inl (by intro h; rw [h] at ht; omega)) rfl]
  refine ⟨?_, rfl⟩
  intro x hx
  show (s.1.tick.chip.writeBytes sn.txBlock.toNat p.toNat bs).mem _ _ = _
  rw [ht, (writeBytes_txBlock sn.idx bs _ _).1 _ _ (by omega), tick_config _ _ _ hx]

theorem watch_txWr (sn : Sn) (v : UInt16) (s : World × List Chip) : ∃ t, (watchBus sn.idx).setSnTxWr sn v s = (.ok (), t) ∧ Same sn.idx s t := by
  refine ⟨_, watch_write sn.idx sn _ sn.block _ s (.inr (.inl (by decide))) rfl, ?_, rfl⟩
  intro x hx
  show (s.1.tick.chip.writeBytes sn.block.toNat 0x24 [(v >>> 8).toUInt8, v.toUInt8]).mem _ _ = _
  rw [Sn.block_toNat]
  unfold Chip.writeBytes Chip.writeBytes Chip.writeBytes Chip.writeByte
  rw [if_pos (by omega), if_neg (by decide), if_neg (by decide), if_neg (by decide), if_pos (by omega), if_neg (by decide), if_neg (by decide),
    if_neg (by decide)]
  dsimp only
  unfold ConfigReg at hx
  unfold Mem.store
  rw [if_neg (by omega), if_neg (by omega), tick_config _ _ _ hx]

theorem watch_send (sn : Sn) (id : UInt16) (qs : List (Qtype × Bytes)) (s1 : World × List Chip) (r0 : Ptrs) (hr0 : r0.sn = sn) :
    Same sn.idx s1 ((onWriter (watchBus sn.idx) r0 (queryProg id qs) >>= fun hr => sendQuery (watchBus sn.idx) hr.2 hr.1 >>= fun _ =>
      (pure () : M (World × List Chip) Unit)) s1).2 := by
  have h1 := onWriter_rel (b := watchBus sn.idx) (R := Same sn.idx) (fun s => Same.refl _ s) (fun _ _ _ => Same.trans) (sn := sn)
    (watch_txBuf sn) r0 hr0 (queryProg id qs) s1
  generalize onWriter (watchBus sn.idx) r0 (queryProg id qs) = m at h1 ⊢
  rw [M.bind_run]
  rcases he : m s1 with ⟨e | ⟨h, r⟩, s2⟩
  · rw [he] at h1; exact h1.1
  · rw [he] at h1
    obtain ⟨h1, h2⟩ := h1
    have hr := h2 h r rfl
    refine h1.trans ?_
    show Same sn.idx s2 ((sendQuery (watchBus sn.idx) r h >>= fun _ => pure ()) s2).2
    unfold sendQuery
    split
    · exact Same.refl _ _
    · unfold writerSend
      rw [hr]
      obtain ⟨s3, e3, k3⟩ := watch_txWr sn r.ptr s2
      obtain ⟨s4, e4, k4⟩ := watch_cmd sn .send (by decide) s3
      rw [bind_assoc, bind_assoc, M.bind_ok e3, M.bind_ok e4]
      exact k3.trans k4

theorem watch_writer (sn : Sn) (s : World × List Chip) :
    ∃ r s1, socketWriter (watchBus sn.idx) sn s = (.ok r, s1) ∧ r.sn = sn ∧ Same sn.idx s s1 :=
  ⟨_, _, rfl, rfl, watch_read sn.idx SnReg.TX_FSR0.addr sn.block 6 s⟩

/-- The query itself: the registers stay as they are. -/
theorem watch_tail (sn : Sn) (id : UInt16) (qs : List (Qtype × Bytes)) (s : World × List Chip) :
    Same sn.idx s ((socketWriter (watchBus sn.idx) sn >>= fun r => onWriter (watchBus sn.idx) r (queryProg id qs) >>= fun hr =>
      sendQuery (watchBus sn.idx) hr.2 hr.1 >>= fun _ => (pure () : M (World × List Chip) Unit)) s).2 := by
  obtain ⟨r, s1, e, hr, h⟩ := watch_writer sn s
  rw [M.bind_ok e]
  exact h.trans (watch_send sn id qs s1 r hr)

theorem wait_error {σ : Type} (b : Bus σ) (sn : Sn) (st : SocketStatus) (hb : ∀ a blk n s, ∃ v t, b.read a blk n s = (.ok v, t)) (fuel : Nat) :
    ∀ (s t : σ) (e : Err), waitStatus b sn st fuel s = (.error e, t) → e = .hang := by
  induction fuel with
  | zero => intro s t e h; cases h; rfl
  | succ n ih =>
    intro s t e h
    unfold waitStatus Bus.snSr at h
    obtain ⟨v, s', h1⟩ := hb SnReg.SR.addr sn.block 1 s
    rw [bind_assoc, M.bind_ok h1, pure_bind] at h
    split at h
    · cases h
    · exact ih _ _ _ h

/-- How a query runs: either a wait for the status does not end, or the socket is opened once, and then has the registers `mdnsRegs`. -/
theorem watch_query (fuel : Nat) (c : MdnsClient) (qs : List (Qtype × Bytes)) (s : World × List Chip) :
    let out := mdnsQuery fuel (watchBus c.sn.idx) c qs s
    (out.1 = .error .hang ∧ out.2.2 = s.2) ∨
    ∃ o : Chip, out.2.2 = s.2 ++ [o] ∧
      (∀ x, 0x0C ≤ x → x < 0x12 → o.mem (4 * c.sn.idx + 1) x = s.1.chip.mem (4 * c.sn.idx + 1) x) ∧
      (out.1 = .error .hang ∨ ∀ x, ConfigReg x → out.2.1.chip.mem (4 * c.sn.idx + 1) x =
        if 0x0C ≤ x ∧ x < 0x12 then ([224, 0, 0, 251, 0x14, 0xE9] : Bytes).getD (x - 0x0C) 0
        else if x = 0 then 0x82
        else if 4 ≤ x ∧ x < 6 then (toBe16 c.port).getD (x - 4) 0
        else if x = 0x16 then 255
        else if 6 ≤ x ∧ x < 12 then ([0x01, 0x00, 0x5E, 0x00, 0x00, 0xFB] : Bytes).getD (x - 6) 0
        else s.1.chip.mem (4 * c.sn.idx + 1) x) := by
  intro out
  have hout : out = mdnsQuery fuel (watchBus c.sn.idx) c qs s := rfl
  unfold mdnsQuery at hout
  obtain ⟨s1, e1, l1, r1⟩ := watch_config c.sn SnReg.DHAR0.addr (Eui48.octets ⟨0x01, 0x00, 0x5E, 0x00, 0x00, 0xFB⟩) s (by decide) (by decide)
  obtain ⟨s2, e2, l2, r2⟩ := watch_config c.sn SnReg.TTL.addr [255] s1 (by decide) (by decide)
  obtain ⟨s3, e3, r3, l3⟩ := watch_cmd c.sn .close (by decide) s2
  rw [M.bind_ok (show (watchBus c.sn.idx).setSnDhar c.sn _ s = _ from e1), M.bind_ok (show (watchBus c.sn.idx).setSnTtl c.sn _ s1 = _ from e2),
    M.bind_ok e3] at hout
  obtain ⟨r4, l4⟩ := watch_wait c.sn.idx c.sn .closed fuel s3
  rw [M.bind_run] at hout
  rcases e4 : waitStatus (watchBus c.sn.idx) c.sn .closed fuel s3 with ⟨e | _, s4⟩
  · rw [e4] at hout r4 l4
    have := wait_error _ _ _ (fun _ _ _ _ => ⟨_, _, rfl⟩) _ _ _ _ e4
    subst this
    left
    rw [hout]
    exact ⟨rfl, by rw [l4, l3, l2, l1]⟩
  rw [e4] at hout r4 l4
  dsimp only at hout r4 l4
  obtain ⟨s5, e5, l5, r5⟩ := watch_config c.sn SnReg.PORT0.addr (toBe16 c.port) s4 (by decide) (by show 4 + 2 ≤ 32; decide)
  obtain ⟨s6, e6, l6, r6⟩ := watch_mode c.sn (SocketMode.default.setProtocol .udp).enableMulti s5
  obtain ⟨s7, e7, l7, r7⟩ := watch_open c.sn s6
  rw [M.bind_ok (show (watchBus c.sn.idx).setSnPort c.sn _ s4 = _ from e5), M.bind_ok e6, M.bind_ok e7] at hout
  obtain ⟨r8, l8⟩ := watch_wait c.sn.idx c.sn .udp fuel s7
  right
  have hl7 : s7.2 = s.2 ++ [s7.1.chip] := by rw [l7, l6, l5, l4, l3, l2, l1]
  have hd : ∀ x, 0x0C ≤ x → x < 0x12 → s7.1.chip.mem (4 * c.sn.idx + 1) x = s.1.chip.mem (4 * c.sn.idx + 1) x := by
    intro x h1 h2
    have hx : ConfigReg x := .inr (.inl (by omega))
    rw [r7 x hx, r6 x hx, if_neg (by omega), r5 x hx, if_neg (by show ¬ (4 ≤ x ∧ x < 4 + 2); omega), r4 x hx, r3 x hx, r2 x hx,
      if_neg (by show ¬ (0x16 ≤ x ∧ x < 0x16 + 1); omega), r1 x hx, if_neg (by show ¬ (6 ≤ x ∧ x < 6 + 6); omega)]
  rw [M.bind_run] at hout
  rcases e8 : waitStatus (watchBus c.sn.idx) c.sn .udp fuel s7 with ⟨e | _, s8⟩
  · rw [e8] at hout r8 l8
    have := wait_error _ _ _ (fun _ _ _ _ => ⟨_, _, rfl⟩) _ _ _ _ e8
    subst this
    refine ⟨s7.1.chip, ?_, hd, .inl ?_⟩
    · rw [hout]; exact l8.trans hl7
    · rw [hout]
  rw [e8] at hout r8 l8
  dsimp only at hout r8 l8
  obtain ⟨s9, e9, l9, r9⟩ := watch_config c.sn SnReg.DIPR0.addr [224, 0, 0, 251, 0x14, 0xE9] s8 (by decide) (by decide)
  rw [M.bind_ok (show (watchBus c.sn.idx).setSnDest c.sn mdnsServer s8 = _ from e9)] at hout
  obtain ⟨r10, l10⟩ := watch_tail c.sn 0 qs s9
  rw [show (socketWriter (watchBus c.sn.idx) c.sn >>= fun r => onWriter (watchBus c.sn.idx) r (queryProg 0 qs) >>= fun hr =>
      sendQuery (watchBus c.sn.idx) hr.2 hr.1 >>= fun _ => (pure () : M (World × List Chip) Unit)) s9 = out from hout.symm] at r10 l10
  refine ⟨s7.1.chip, by rw [l10, l9, l8, hl7], hd, .inr ?_⟩
  intro x hx
  rw [r10 x hx, r9 x hx]
  show (if 0x0C ≤ x ∧ x < 0x12 then _ else _) = _
  split
  · rfl
  rw [r8 x hx, r7 x hx, r6 x hx]
  split
  · rfl
  rw [r5 x hx]
  show (if 4 ≤ x ∧ x < 6 then _ else _) = _
  split
  · rfl
  rw [r4 x hx, r3 x hx, r2 x hx]
  show (if 0x16 ≤ x ∧ x < 0x17 then _ else _) = _
  by_cases h16 : x = 0x16
  · subst h16; rfl
  rw [if_neg (by omega), if_neg h16, r1 x hx]
  rfl

/-- C120: a query of a client made with `new` sets the socket up for multicast DNS, with the given source port or 5353, and opens it once; whatever
happens meanwhile, unless a wait for the status does not end. -/
theorem C120_configured (fuel : Nat) (sn : Sn) (port : Option UInt16) (qs : List (Qtype × Bytes)) (w : World) :
    let out := mdnsQuery fuel (watchBus sn.toU8.toNat) (MdnsClient.new sn port) qs (w, [])
    out.1 ≠ .error .hang →
    MulticastDns out.2.1.chip sn.toU8.toNat (port.getD 5353) ∧ out.2.2.length = 1 := by
  intro out hne
  rcases watch_query fuel (MdnsClient.new sn port) qs (w, []) with ⟨h, _⟩ | ⟨o, h1, _, h | h⟩
  · exact absurd h hne
  · exact absurd h hne
  · have hr : ∀ x, ConfigReg x → out.2.1.chip.mem (4 * sn.toU8.toNat + 1) x = _ := h
    have h1' : out.2.2 = [] ++ [o] := h1
    refine ⟨⟨?_, ?_, ?_, ?_, ?_, ?_⟩, by rw [h1']; rfl⟩
    · rw [hr _ (.inl rfl)]; rfl
    · unfold Chip.srcPort Mem.word
      rw [hr 4 (.inr (.inl (by omega))), hr (4 + 1) (.inr (.inl (by omega)))]
      show ((port.getD 5353 >>> 8).toUInt8).toNat * 256 + ((port.getD 5353).toUInt8).toNat = _
      rw [← be16_toNat, be16_toBe16]
    · simp only [List.range, List.range.loop, List.map]
      rw [hr _ (.inr (.inl (by omega))), hr _ (.inr (.inl (by omega))), hr _ (.inr (.inl (by omega))), hr _ (.inr (.inl (by omega))),
        hr _ (.inr (.inl (by omega))), hr _ (.inr (.inl (by omega)))]
      rfl
    · rw [hr _ (.inr (.inl (by omega)))]; rfl
    · unfold Chip.destIp
      simp only [List.range, List.range.loop, List.map]
      rw [hr _ (.inr (.inl (by omega))), hr _ (.inr (.inl (by omega))), hr _ (.inr (.inl (by omega))), hr _ (.inr (.inl (by omega)))]
      rfl
    · unfold Chip.destPort Mem.word
      rw [hr 0x10 (.inr (.inl (by omega))), hr (0x10 + 1) (.inr (.inl (by omega))), if_pos (by omega), if_pos (by omega)]
      decide

/-- When the socket is opened, its destination registers are as before the query. -/
theorem opened_group (fuel : Nat) (c : MdnsClient) (qs : List (Qtype × Bytes)) (w : World) :
    ∀ o ∈ (mdnsQuery fuel (watchBus c.sn.toU8.toNat) c qs (w, [])).2.2, HasGroup o c.sn.toU8.toNat ↔ HasGroup w.chip c.sn.toU8.toNat := by
  intro o ho
  rcases watch_query fuel c qs (w, []) with ⟨_, h⟩ | ⟨o', h, hd, _⟩
  · have h' : (mdnsQuery fuel (watchBus c.sn.toU8.toNat) c qs (w, [])).2.2 = [] := h
    rw [h'] at ho; cases ho
  · have h' : (mdnsQuery fuel (watchBus c.sn.toU8.toNat) c qs (w, [])).2.2 = [] ++ [o'] := h
    rw [h', List.nil_append, List.mem_singleton] at ho
    subst ho
    have e1 : o.destIp c.sn.toU8.toNat = w.chip.destIp c.sn.toU8.toNat := by
      have a : ∀ i, i < 4 → o.mem (4 * c.sn.toU8.toNat + 1) (0x0C + i) = w.chip.mem (4 * c.sn.toU8.toNat + 1) (0x0C + i) :=
        fun i hi => hd _ (by omega) (by omega)
      unfold Chip.destIp
      exact List.map_congr_left fun i hi => a i (List.mem_range.mp hi)
    have e2 : o.destPort c.sn.toU8.toNat = w.chip.destPort c.sn.toU8.toNat := by
      unfold Chip.destPort Mem.word
      have a1 : o.mem (4 * c.sn.toU8.toNat + 1) 0x10 = w.chip.mem (4 * c.sn.toU8.toNat + 1) 0x10 := hd _ (by omega) (by omega)
      have a2 : o.mem (4 * c.sn.toU8.toNat + 1) (0x10 + 1) = w.chip.mem (4 * c.sn.toU8.toNat + 1) (0x10 + 1) := hd _ (by omega) (by omega)
      rw [a1, a2]
    unfold HasGroup
    rw [e1, e2]

/-- C120 (refutation): the group is written after the socket is opened.  Whenever the destination registers do not hold the group before a query, for
example after a reset, the socket is opened without the group, so the condition for multicasting that the documentation of `SocketMode` and the
data sheet state is not met. -/
theorem C120_group_not (fuel : Nat) (c : MdnsClient) (qs : List (Qtype × Bytes)) (w : World) (hg : ¬ HasGroup w.chip c.sn.toU8.toNat) :
    let out := mdnsQuery fuel (watchBus c.sn.toU8.toNat) c qs (w, [])
    out.1 = .ok () → ∃ o, out.2.2 = [o] ∧ ¬ HasGroup o c.sn.toU8.toNat := by
  intro out hok
  have ho := opened_group fuel c qs w
  rcases watch_query fuel c qs (w, []) with ⟨h, _⟩ | ⟨o, h1, _⟩
  · have h : out.1 = _ := h
    rw [h] at hok; cases hok
  · have h1' : out.2.2 = [] ++ [o] := h1
    refine ⟨o, h1', fun h => hg ?_⟩
    exact (ho o (by show o ∈ out.2.2; rw [h1']; exact List.mem_singleton.mpr rfl)).mp h

/-- C120 (part): a query whose socket had the group in its registers before, as an earlier query leaves it (`C120_configured`), opens the
socket with the group.  Missing: the first query (`C120_group_not`). -/
theorem C120_group_partial (fuel : Nat) (c : MdnsClient) (qs : List (Qtype × Bytes)) (w : World) (hg : HasGroup w.chip c.sn.toU8.toNat) :
    ∀ o ∈ (mdnsQuery fuel (watchBus c.sn.toU8.toNat) c qs (w, [])).2.2, HasGroup o c.sn.toU8.toNat :=
  fun o ho => (opened_group fuel c qs w o ho).mpr hg

/-- Non-vacuity: after a reset a query succeeds and the socket is opened with the destination 0.0.0.0 port 0; the query after it opens the socket with
the group. -/
example : let r := mdnsQuery 3 (watchBus 3) (MdnsClient.new .sn3 none) [(.A, [97, 46, 98, 99])] ({ sampleWorld with sched := [] }, [])
    let r2 := mdnsQuery 3 (watchBus 3) (MdnsClient.new .sn3 none) [(.A, [97, 46, 98, 99])] (r.2.1, [])
    r.1 = .ok () ∧ r.2.2.map (fun o => (o.destIp 3, o.destPort 3)) = [([0, 0, 0, 0], 0)] ∧ r.2.1.chip.srcPort 3 = 5353 ∧
    r2.1 = .ok () ∧ r2.2.2.map (fun o => (o.destIp 3, o.destPort 3)) = [([224, 0, 0, 251], 5353)] := by decide +kernel

end Verif.Thm

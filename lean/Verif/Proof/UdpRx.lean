import Verif.Proof.Writer
namespace Verif
open Hl Spec

theorem deser_frame (src : SockAddr) (payload rest : Bytes) (h : payload.length < 65536) :
    UdpHeader.deser ((udpFrame src payload ++ rest).take 8) = ⟨src, UInt16.ofNat payload.length⟩ := by
  obtain ⟨⟨a, b, c, d⟩, port⟩ := src
  simp only [udpFrame, Ipv4.octets, List.cons_append, List.nil_append, List.take_succ_cons, List.take_zero,
    UdpHeader.deser, UdpHeader.mk.injEq, SockAddr.mk.injEq, true_and]
  have := u16_lt port
  constructor
  · apply u16_ext; rw [be16_toNat, UInt8.toNat_ofNat', UInt8.toNat_ofNat']; omega
  · apply u16_ext; rw [be16_toNat, UInt8.toNat_ofNat', UInt8.toNat_ofNat', UInt16.toNat_ofNat']; omega

theorem udpFrame_length (src : SockAddr) (payload : Bytes) : (udpFrame src payload).length = 8 + payload.length := by
  simp [udpFrame, Ipv4.octets]; omega

theorem udpFrame_drop (src : SockAddr) (payload rest : Bytes) :
    (udpFrame src payload ++ rest).drop 8 = payload ++ rest := by
  simp [udpFrame, Ipv4.octets]

theorem M.bind2_ok {σ α β γ} {a : M σ α} {b : α → M σ β} {s s' : σ} {x : β} {k : β → M σ γ}
    (h : (a >>= b) s = (.ok x, s')) : (a >>= fun y => b y >>= k) s = k x s' := by
  change M.bind a _ s = _
  change M.bind a b s = _ at h
  unfold M.bind at h ⊢
  rcases ha : a s with ⟨e | y, s1⟩
  · rw [ha] at h; simp at h
  · rw [ha] at h; exact M.bind_ok h

theorem ite_bind {σ α β} (c : Prop) [Decidable c] (a b : M σ α) (k : α → M σ β) :
    (if c then a else b) >>= k = if c then a >>= k else b >>= k := by
  split <;> rfl

/-- Any number of environment turns. -/
def World.ticks : Nat → World → World
  | 0, w => w
  | n + 1, w => World.ticks n w.tick

theorem ticks_or {w w' : World} (h : w' = w ∨ w' = w.tick) : ∃ j, w' = World.ticks j w := by
  rcases h with rfl | rfl
  · exact ⟨0, rfl⟩
  · exact ⟨1, rfl⟩

theorem ticks_add (i j : Nat) (w : World) : World.ticks j (World.ticks i w) = World.ticks (i + j) w := by
  induction i generalizing w with
  | zero => rw [Nat.zero_add]; rfl
  | succ n ih => rw [Nat.succ_add]; exact ih w.tick

theorem ticks_nil (j : Nat) (c : Chip) : World.ticks j ⟨c, []⟩ = ⟨c, []⟩ := by
  induction j with
  | zero => rfl
  | succ n ih => exact ih

theorem u16_lt_LEN (x : UInt16) : x < UdpHeader.LEN ↔ x.toNat < 8 := by
  rw [UInt16.lt_iff_toNat_lt]; rfl

theorem RxAt.rsr_toNat {c : Chip} {k base p : Nat} (h : RxAt c k base p) :
    (UInt16.ofNat (c.rxRsr k)).toNat = (c.received k).length - p := by
  have h1 := h.rx.rsr; have h2 := h.rx.fits; have h3 := h.rx.size_lt
  rw [ofNat16_toNat (by omega), h1]

/-- A datagram (or at least a header) at the front, and what the header says. -/
structure Front (w : World) (k p : Nat) (H : UdpHeader) : Prop where
  len : 8 ≤ (w.chip.received k).length - p
  hdr : UdpHeader.deser (((w.chip.received k).drop p).take 8) = H

/-- the start of the receive functions: header read at `w.tick`'s contents -/
theorem run_header {w : World} {sn : Sn} {base p : Nat} (h : RxAt w.chip sn.idx base p)
    (hl : p + 8 ≤ (w.chip.received sn.idx).length) :
    worldBus.snRxRd sn w = (.ok (UInt16.ofNat (w.tick.chip.rxRd sn.idx)), w.tick) ∧
    (UInt16.ofNat (w.tick.chip.rxRd sn.idx)).toNat = (base + p) % 65536 ∧
    worldBus.snRxBuf sn (UInt16.ofNat (w.tick.chip.rxRd sn.idx)) 8 w.tick
      = (.ok (((w.chip.received sn.idx).drop p).take 8), w.tick.tick) := by
  have h1 := h.tick
  have pre := tick_received_prefix w sn.idx
  have := pre.length_le
  have hp : (UInt16.ofNat (w.tick.chip.rxRd sn.idx)).toNat = (base + p) % 65536 := by
    rw [ofNat16_toNat (by rw [h1.rd]; omega), h1.rd]
  refine ⟨run_snRxRd sn w, hp, ?_⟩
  rw [h1.rx.run_rxBuf _ p 8 hp (Nat.le_refl _) (by omega), ← take_drop_prefix pre p 8 hl]

theorem ticks_prefix (j : Nat) (w : World) (k : Nat) : w.chip.received k <+: (World.ticks j w).chip.received k := by
  induction j generalizing w with
  | zero => exact List.prefix_rfl
  | succ n ih => exact (tick_received_prefix w k).trans (ih w.tick)

theorem RxAt.ticks {w : World} {k base p : Nat} (h : RxAt w.chip k base p) (j : Nat) :
    RxAt (World.ticks j w).chip k base p := by
  induction j generalizing w with
  | zero => exact h
  | succ n ih => exact ih h.tick

/-- payload read -/
theorem run_payload {w w2 : World} {sn : Sn} {base p : Nat} (h : RxAt w2.chip sn.idx base p)
    (pre : w.chip.received sn.idx <+: w2.chip.received sn.idx) (ptr : UInt16) (n : UInt16)
    (hp : ptr.toNat = (base + (p + 8)) % 65536) (hn : p + 8 + n.toNat ≤ (w.chip.received sn.idx).length) :
    ∃ w3, (w3 = w2 ∨ w3 = w2.tick) ∧
      (if n ≠ 0 then worldBus.snRxBuf sn ptr n.toNat else pure [] : M World Bytes) w2
        = (.ok (((w.chip.received sn.idx).drop (p + 8)).take n.toNat), w3) := by
  by_cases hz : n = 0
  · subst hz
    refine ⟨w2, .inl rfl, ?_⟩
    rw [if_neg (by simp)]; rfl
  · refine ⟨w2.tick, .inr rfl, ?_⟩
    have := pre.length_le
    rw [if_pos hz, h.rx.run_rxBuf ptr (p + 8) n.toNat hp (by omega) (by omega), ← take_drop_prefix pre _ _ hn]

/-- What `udp_recv_from` does, for any contents of the buffer when it reads the received size. -/
theorem udpRecvFrom_run (dbg : Bool) (sn : Sn) (n : Nat) (w : World) (base p : Nat) (h : RxAt w.chip sn.idx base p) :
    let D := (w.tick.chip.received sn.idx).drop p
    let H := UdpHeader.deser (D.take 8)
    if D.length < 8 ∨ D.length < 8 + H.len.toNat then
      ∃ j, udpRecvFrom dbg worldBus sn n w = (.error .wouldBlock, World.ticks j w.tick) ∨
        (dbg = true ∧ udpRecvFrom dbg worldBus sn n w = (.error .panic, World.ticks j w.tick))
    else
      (∃ j, dbg = true ∧ udpRecvFrom dbg worldBus sn n w = (.error .panic, World.ticks j w.tick)) ∨
      ∃ w', udpRecvFrom dbg worldBus sn n w
          = (.ok (UInt16.ofNat (min H.len.toNat n), H.origin, (D.drop 8).take (min H.len.toNat n)), w') ∧
        RxAt w'.chip sn.idx base (p + (8 + H.len.toNat)) ∧
        w.tick.chip.received sn.idx <+: w'.chip.received sn.idx := by
  intro D H
  have h1 := h.tick
  have hrsr := h1.rsr_toNat
  have hD : D.length = (w.tick.chip.received sn.idx).length - p := List.length_drop
  have hle := h1.rx.le
  by_cases h8 : D.length < 8
  · rw [if_pos (.inl h8)]
    refine ⟨0, .inl ?_⟩
    unfold udpRecvFrom
    rw [M.bind_ok (run_snRxRsr sn w), if_pos (by rw [u16_lt_LEN, hrsr]; omega)]; rfl
  · obtain ⟨w2, hw2, hd⟩ := run_debugAssert dbg _ w.tick (run_srIsUdp sn w.tick)
    have h2 := h1.of_or hw2
    have pre2 := recv_prefix_of_or sn.idx hw2
    have hlen2 := pre2.length_le
    obtain ⟨e1, hp, e2⟩ := run_header h2 (by omega)
    rw [← take_drop_prefix pre2 p 8 (by omega)] at e2
    have h3 := h2.tick.tick
    have pre3 := pre2.trans ((tick_received_prefix w2 sn.idx).trans (tick_received_prefix w2.tick sn.idx))
    have hrsr' : (UInt16.ofNat (w.tick.chip.rxRsr sn.idx) - UdpHeader.LEN).toNat = D.length - 8 := by
      have := h1.rx.fits; have := h1.rx.size_lt
      rw [u16_sub_toNat, hrsr, show UdpHeader.LEN.toNat = 8 from rfl]; omega
    obtain ⟨j2, hj2⟩ := ticks_or hw2
    by_cases hH : D.length < 8 + H.len.toNat
    · rw [if_pos (.inr hH)]
      rcases hd with hd | ⟨hdbg, hd⟩
      · refine ⟨j2 + 2, .inl ?_⟩
        unfold udpRecvFrom
        rw [M.bind_ok (run_snRxRsr sn w), if_neg (by rw [u16_lt_LEN, hrsr]; omega)]
        show (debugAssert dbg _ >>= _ : M World _) w.tick = _
        rw [M.bind_ok hd, M.bind_ok e1, M.bind_ok e2]
        show (if UInt16.ofNat (w.tick.chip.rxRsr sn.idx) - UdpHeader.LEN < H.len then _ else _ : M World _) _ = _
        rw [if_pos (by rw [UInt16.lt_iff_toNat_lt, hrsr']; omega), ← ticks_add, ← hj2]; rfl
      · refine ⟨j2, .inr ⟨hdbg, ?_⟩⟩
        unfold udpRecvFrom
        rw [M.bind_ok (run_snRxRsr sn w), if_neg (by rw [u16_lt_LEN, hrsr]; omega)]
        show (debugAssert dbg _ >>= _ : M World _) w.tick = _
        rw [M.bind_error hd, ← hj2]
    · rw [if_neg (by rintro (h | h) <;> contradiction)]
      rcases hd.symm with ⟨hdbg, hd⟩ | hd
      · left
        refine ⟨j2, hdbg, ?_⟩
        unfold udpRecvFrom
        rw [M.bind_ok (run_snRxRsr sn w), if_neg (by rw [u16_lt_LEN, hrsr]; omega)]
        show (debugAssert dbg _ >>= _ : M World _) w.tick = _
        rw [M.bind_error hd, ← hj2]
      · right
        have hHlt := u16_lt H.len
        have hm : (min16 H.len (lenU16 n)).toNat = min H.len.toNat n := by
          rw [min16_toNat, lenU16_toNat]; omega
        have hp8 : (UInt16.ofNat (w2.tick.chip.rxRd sn.idx) + UdpHeader.LEN).toNat = (base + (p + 8)) % 65536 := by
          rw [UInt16.toNat_add, hp, show UdpHeader.LEN.toNat = 8 from rfl]; omega
        obtain ⟨w4, hw4, e4⟩ := run_payload (w := w.tick) h3 pre3
          (UInt16.ofNat (w2.tick.chip.rxRd sn.idx) + UdpHeader.LEN) (min16 H.len (lenU16 n)) hp8 (by omega)
        have h4 := h3.of_or hw4
        have pre4 := pre3.trans (recv_prefix_of_or sn.idx hw4)
        have hlen4 := pre4.length_le
        obtain ⟨w5, e5, h5, pre5⟩ := RxAt.consume (w := w4) (sn := sn) h4.rx
          (UInt16.ofNat (w2.tick.chip.rxRd sn.idx) + UdpHeader.LEN + H.len) (q := p + (8 + H.len.toNat))
          (by rw [UInt16.toNat_add, hp8]; omega) (by omega) (by omega)
        refine ⟨w5, ?_, h5, pre4.trans pre5⟩
        unfold udpRecvFrom
        rw [M.bind_ok (run_snRxRsr sn w), if_neg (by rw [u16_lt_LEN, hrsr]; omega)]
        show (debugAssert dbg _ >>= _ : M World _) w.tick = _
        rw [M.bind_ok hd, M.bind_ok e1, M.bind_ok e2]
        show (if UInt16.ofNat (w.tick.chip.rxRsr sn.idx) - UdpHeader.LEN < H.len then _ else _ : M World _) _ = _
        rw [if_neg (by rw [UInt16.lt_iff_toNat_lt, hrsr']; omega)]
        show (if min16 H.len (lenU16 n) ≠ 0 then worldBus.snRxBuf sn _ _ >>= _ else pure [] >>= _ : M World _) _ = _
        rw [← ite_bind]
        rw [M.bind_ok e4]
        show (worldBus.setSnRxRd sn (UInt16.ofNat (w2.tick.chip.rxRd sn.idx) + UdpHeader.LEN + H.len) >>= fun _ =>
          worldBus.setSnCr sn .recv >>= fun _ => pure (min16 H.len (lenU16 n), H.origin, _) : M World _) w4 = _
        rw [M.bind2_ok e5]
        show (Except.ok (_, _, _), _) = _
        rw [hm, List.drop_drop, ← hm, UInt16.ofNat_toNat]

theorem udpPeekFrom_run (dbg : Bool) (sn : Sn) (n : Nat) (w : World) (base p : Nat) (h : RxAt w.chip sn.idx base p) :
    let D := (w.tick.chip.received sn.idx).drop p
    let H := UdpHeader.deser (D.take 8)
    ∃ j, (dbg = true ∧ udpPeekFrom dbg worldBus sn n w = (.error .panic, World.ticks j w.tick)) ∨
      udpPeekFrom dbg worldBus sn n w =
        (if D.length < 8 ∨ D.length < 8 + H.len.toNat then .error .wouldBlock
         else .ok (UInt16.ofNat (min H.len.toNat n), H, (D.drop 8).take (min H.len.toNat n)), World.ticks j w.tick) := by
  intro D H
  have h1 := h.tick
  have hrsr := h1.rsr_toNat
  have hD : D.length = (w.tick.chip.received sn.idx).length - p := List.length_drop
  have hle := h1.rx.le
  by_cases h8 : D.length < 8
  · rw [if_pos (.inl h8)]
    refine ⟨0, .inr ?_⟩
    unfold udpPeekFrom
    rw [M.bind_ok (run_snRxRsr sn w), if_pos (by rw [u16_lt_LEN, hrsr]; omega)]; rfl
  · obtain ⟨w2, hw2, hd⟩ := run_debugAssert dbg _ w.tick (run_srIsUdp sn w.tick)
    have h2 := h1.of_or hw2
    have pre2 := recv_prefix_of_or sn.idx hw2
    have hlen2 := pre2.length_le
    obtain ⟨e1, hp, e2⟩ := run_header h2 (by omega)
    rw [← take_drop_prefix pre2 p 8 (by omega)] at e2
    have h3 := h2.tick.tick
    have pre3 := pre2.trans ((tick_received_prefix w2 sn.idx).trans (tick_received_prefix w2.tick sn.idx))
    have hrsr' : (UInt16.ofNat (w.tick.chip.rxRsr sn.idx) - UdpHeader.LEN).toNat = D.length - 8 := by
      have := h1.rx.fits; have := h1.rx.size_lt
      rw [u16_sub_toNat, hrsr, show UdpHeader.LEN.toNat = 8 from rfl]; omega
    obtain ⟨j2, hj2⟩ := ticks_or hw2
    rcases hd.symm with ⟨hdbg, hd⟩ | hd
    · refine ⟨j2, .inl ⟨hdbg, ?_⟩⟩
      unfold udpPeekFrom
      rw [M.bind_ok (run_snRxRsr sn w), if_neg (by rw [u16_lt_LEN, hrsr]; omega)]
      show (debugAssert dbg _ >>= _ : M World _) w.tick = _
      rw [M.bind_error hd, ← hj2]
    · by_cases hH : D.length < 8 + H.len.toNat
      · rw [if_pos (.inr hH)]
        refine ⟨j2 + 2, .inr ?_⟩
        unfold udpPeekFrom
        rw [M.bind_ok (run_snRxRsr sn w), if_neg (by rw [u16_lt_LEN, hrsr]; omega)]
        show (debugAssert dbg _ >>= _ : M World _) w.tick = _
        rw [M.bind_ok hd, M.bind_ok e1, M.bind_ok e2]
        show (if UInt16.ofNat (w.tick.chip.rxRsr sn.idx) - UdpHeader.LEN < H.len then _ else _ : M World _) _ = _
        rw [if_pos (by rw [UInt16.lt_iff_toNat_lt, hrsr']; omega), ← ticks_add, ← hj2]; rfl
      · rw [if_neg (by rintro (h | h) <;> contradiction)]
        have hHlt := u16_lt H.len
        have hm : (min16 H.len (lenU16 n)).toNat = min H.len.toNat n := by
          rw [min16_toNat, lenU16_toNat]; omega
        have hp8 : (UInt16.ofNat (w2.tick.chip.rxRd sn.idx) + UdpHeader.LEN).toNat = (base + (p + 8)) % 65536 := by
          rw [UInt16.toNat_add, hp, show UdpHeader.LEN.toNat = 8 from rfl]; omega
        obtain ⟨w4, hw4, e4⟩ := run_payload (w := w.tick) h3 pre3
          (UInt16.ofNat (w2.tick.chip.rxRd sn.idx) + UdpHeader.LEN) (min16 H.len (lenU16 n)) hp8 (by omega)
        obtain ⟨j4, hj4⟩ := ticks_or hw4
        refine ⟨j2 + 2 + j4, .inr ?_⟩
        unfold udpPeekFrom
        rw [M.bind_ok (run_snRxRsr sn w), if_neg (by rw [u16_lt_LEN, hrsr]; omega)]
        show (debugAssert dbg _ >>= _ : M World _) w.tick = _
        rw [M.bind_ok hd, M.bind_ok e1, M.bind_ok e2]
        show (if UInt16.ofNat (w.tick.chip.rxRsr sn.idx) - UdpHeader.LEN < H.len then _ else _ : M World _) _ = _
        rw [if_neg (by rw [UInt16.lt_iff_toNat_lt, hrsr']; omega)]
        show (if min16 H.len (lenU16 n) ≠ 0 then worldBus.snRxBuf sn _ _ >>= _ else pure [] >>= _ : M World _) _ = _
        rw [← ite_bind]
        rw [M.bind_ok e4]
        show (Except.ok (_, _, _), _) = _
        rw [← ticks_add, ← ticks_add, ← hj2, show World.ticks 2 w2 = w2.tick.tick from rfl, ← hj4, hm, List.drop_drop,
          ← hm, UInt16.ofNat_toNat]

theorem udpPeekFromHeader_run (dbg : Bool) (sn : Sn) (w : World) (base p : Nat) (h : RxAt w.chip sn.idx base p) :
    let D := (w.tick.chip.received sn.idx).drop p
    ∃ j, (dbg = true ∧ udpPeekFromHeader dbg worldBus sn w = (.error .panic, World.ticks j w.tick)) ∨
      udpPeekFromHeader dbg worldBus sn w =
        (if D.length < 8 then .error .wouldBlock else .ok (UdpHeader.deser (D.take 8)), World.ticks j w.tick) := by
  intro D
  have h1 := h.tick
  have hrsr := h1.rsr_toNat
  have hD : D.length = (w.tick.chip.received sn.idx).length - p := List.length_drop
  have hle := h1.rx.le
  by_cases h8 : D.length < 8
  · rw [if_pos h8]
    refine ⟨0, .inr ?_⟩
    unfold udpPeekFromHeader
    rw [M.bind_ok (run_snRxRsr sn w), if_pos (by rw [u16_lt_LEN, hrsr]; omega)]; rfl
  · obtain ⟨w2, hw2, hd⟩ := run_debugAssert dbg _ w.tick (run_srIsUdp sn w.tick)
    have h2 := h1.of_or hw2
    have pre2 := recv_prefix_of_or sn.idx hw2
    have hlen2 := pre2.length_le
    obtain ⟨e1, hp, e2⟩ := run_header h2 (by omega)
    rw [← take_drop_prefix pre2 p 8 (by omega)] at e2
    obtain ⟨j2, hj2⟩ := ticks_or hw2
    rw [if_neg h8]
    rcases hd.symm with ⟨hdbg, hd⟩ | hd
    · refine ⟨j2, .inl ⟨hdbg, ?_⟩⟩
      unfold udpPeekFromHeader
      rw [M.bind_ok (run_snRxRsr sn w), if_neg (by rw [u16_lt_LEN, hrsr]; omega)]
      rw [M.bind_error hd, ← hj2]
    · refine ⟨j2 + 2, .inr ?_⟩
      unfold udpPeekFromHeader
      rw [M.bind_ok (run_snRxRsr sn w), if_neg (by rw [u16_lt_LEN, hrsr]; omega)]
      rw [M.bind_ok hd, M.bind_ok e1, M.bind_ok e2, ← ticks_add, ← hj2]; rfl

end Verif
